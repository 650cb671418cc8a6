import Verif.Lemmas.RefStart
import Verif.Spec.Many
/-!
Several IPs.
-/
namespace Funge
open Exec Field Ref
open Ref.Bef (Step Steps Idle Tick)

/-- The rectangle does not shrink. -/
def Grows (b c : Bef) : Prop := c.west ≤ b.west ∧ b.east ≤ c.east ∧ c.north ≤ b.north ∧ b.south ≤ c.south

theorem Grows.refl (b : Bef) : Grows b b := ⟨Int.le_refl _, Int.le_refl _, Int.le_refl _, Int.le_refl _⟩

theorem Grows.same {b c : Bef} (h1 : c.west = b.west) (h2 : c.east = b.east) (h3 : c.north = b.north) (h4 : c.south = b.south) : Grows b c :=
  ⟨Int.le_of_eq h1, Int.le_of_eq h2.symm, Int.le_of_eq h3, Int.le_of_eq h4.symm⟩

theorem Grows.trans {b c d : Bef} (h1 : Grows b c) (h2 : Grows c d) : Grows b d := by
  obtain ⟨a1, a2, a3, a4⟩ := h1
  obtain ⟨c1, c2, c3, c4⟩ := h2
  exact ⟨by omega, by omega, by omega, by omega⟩

theorem Grows.has {b c : Bef} (h : Grows b c) {p : Int × Int} (hp : b.has p = true) : c.has p = true := by
  obtain ⟨a1, a2, a3, a4⟩ := h
  unfold Bef.has at hp ⊢
  simp only [Bool.and_eq_true, decide_eq_true_eq] at hp ⊢
  omega

theorem grows_moves (k : Nat) : ∀ b : Bef, Grows b (b.moves k) := by
  induction k with
  | zero => exact Grows.refl
  | succ k ih => exact fun b => ih b.move

theorem grows_store {R : Rules} {b c : Bef} {x y v : Int} (h : c ∈ b.store R x y v) : Grows b c := by
  unfold Bef.store at h
  split at h
  · split at h
    · obtain rfl := List.mem_singleton.mp h; exact .same rfl rfl rfl rfl
    · cases h
  split at h
  · split at h
    · obtain rfl := List.mem_singleton.mp h; exact .same rfl rfl rfl rfl
    · cases h
  · split at h
    · cases h
    · obtain rfl := List.mem_singleton.mp h
      refine ⟨?_, ?_, ?_, ?_⟩
      · show min b.west x ≤ b.west; omega
      · show b.east ≤ max b.east x; omega
      · show min b.north y ≤ b.north; omega
      · show b.south ≤ max b.south y; omega

theorem grows_result {b c : Bef} {v : Int} (h : c ∈ b.result v) : Grows b c := by
  unfold Bef.result at h
  split at h
  · obtain rfl := List.mem_singleton.mp h; exact .same rfl rfl rfl rfl
  · cases h

theorem grows_perform {R : Rules} {b c : Bef} {v : Word} (h : c ∈ b.perform R v) : Grows b c := by
  have one : ∀ {d : Bef}, c ∈ [d] → Grows b d → Grows b c := fun hm hd => by rw [List.mem_singleton.mp hm]; exact hd
  have ite : ∀ {P : Prop} [Decidable P] {d : Bef}, c ∈ (if P then [d] else []) → Grows b d → Grows b c := fun {P _ d} hm hd => by
    split at hm
    · exact one hm hd
    · cases hm
  have eti : ∀ {P : Prop} [Decidable P] {d : Bef}, c ∈ (if P then [] else [d]) → Grows b d → Grows b c := fun {P _ d} hm hd => by
    split at hm
    · cases hm
    · exact one hm hd
  cases v with
  | random =>
    obtain ⟨d, -, rfl⟩ := List.mem_map.mp h
    exact .same rfl rfl rfl rfl
  | rem =>
    simp only [Bef.perform] at h
    split at h
    · cases h
    · exact grows_result h
  | mul => exact grows_result h
  | add => exact grows_result h
  | sub => exact grows_result h
  | div => exact grows_result h
  | gt => exact grows_result h
  | numIn =>
    simp only [Bef.perform, Bef.readNumber] at h
    split at h
    · exact one h (.same rfl rfl rfl rfl)
    · exact eti h (.same rfl rfl rfl rfl)
  | charIn =>
    simp only [Bef.perform, Bef.readChar] at h
    split at h
    · exact one h (.same rfl rfl rfl rfl)
    · exact eti h (.same rfl rfl rfl rfl)
  | numOut => exact ite h (.same rfl rfl rfl rfl)
  | bridge => exact eti h (.same rfl rfl rfl rfl)
  | quote => exact eti h (.same rfl rfl rfl rfl)
  | get => exact eti h (.same rfl rfl rfl rfl)
  | put => exact grows_store (b := b.replace 3 []) h
  | compare =>
    refine one h ?_
    split
    · exact .same rfl rfl rfl rfl
    · split <;> exact .same rfl rfl rfl rfl
  | jump =>
    refine ite h ?_
    split
    · exact grows_moves _ (b.replace 1 []).turn
    · exact grows_moves _ (b.replace 1 [])
  | quit => exact ite h (.same rfl rfl rfl rfl)
  | fetch => exact ite h (.same rfl rfl rfl rfl)
  | store =>
    simp only [Bef.perform] at h
    split at h
    · exact grows_store (b := b.move.replace 1 []) h
    · cases h
  | opens => exact eti h (.same rfl rfl rfl rfl)
  | closes =>
    simp only [Bef.perform] at h
    split at h
    · exact one h (.same rfl rfl rfl rfl)
    · exact eti h (.same rfl rfl rfl rfl)
  | under =>
    simp only [Bef.perform] at h
    split at h
    · exact one h (.same rfl rfl rfl rfl)
    · refine eti h ?_
      unfold Bef.transfer
      dsimp only
      split <;> exact .same rfl rfl rfl rfl
  | split => exact eti h (.same rfl rfl rfl rfl)
  | iterate => cases h
  | info =>
    simp only [Bef.perform] at h
    split at h
    · cases h
    · split at h
      · exact one h (.same rfl rfl rfl rfl)
      · cases h
  | system k => exact eti h (.same rfl rfl rfl rfl)
  | _ => exact one h (.same rfl rfl rfl rfl)

theorem grows_repeated {R : Rules} {v : Word} (n : Nat) : ∀ {b c : Bef}, c ∈ b.repeated R v n → Grows b c := by
  induction n with
  | zero =>
    intro b c h
    rw [List.mem_singleton.mp h]
    exact Grows.refl b
  | succ n ih =>
    intro b c h
    unfold Bef.repeated at h
    split at h
    · cases h
    · obtain ⟨d, h1, h2⟩ := List.mem_flatMap.mp h
      exact (grows_perform h1).trans (ih h2)

theorem grows_iterate {R : Rules} {b c : Bef} (h : c ∈ b.iterate R) : Grows b c := by
  have one : ∀ {d : Bef}, c ∈ [d] → Grows b d → Grows b c := fun hm hd => by rw [List.mem_singleton.mp hm]; exact hd
  unfold Bef.iterate at h
  split at h
  · cases h
  · split at h
    · cases h
    · split at h
      · exact one h (.same rfl rfl rfl rfl)
      · split at h
        · split at h
          · exact one h (.same rfl rfl rfl rfl)
          · cases h
        · split at h
          · cases h
          · split at h
            · exact (show Grows b (b.replace 1 []) from .same rfl rfl rfl rfl).trans (grows_repeated _ h)
            · cases h

theorem grows_acts {R : Rules} {b c : Bef} (h : c ∈ b.acts R) : Grows b c := by
  have one : ∀ {d : Bef}, c ∈ [d] → Grows b d → Grows b c := fun hm hd => by rw [List.mem_singleton.mp hm]; exact hd
  unfold Bef.acts at h
  dsimp only at h
  split at h
  · exact one h (.same rfl rfl rfl rfl)
  · split at h
    · split at h
      · exact one h (.same rfl rfl rfl rfl)
      split at h
      · cases h
      · split at h
        · exact one h (.same rfl rfl rfl rfl)
        · split at h
          · cases h
          · split at h
            · exact one h (.same rfl rfl rfl rfl)
            · exact one h (.same rfl rfl rfl rfl)
    · split at h
      · exact one h (.same rfl rfl rfl rfl)
      · split at h
        · exact grows_iterate h
        · exact grows_perform h

theorem grows_step {R : Rules} {b c : Bef} (h : Step R b c) : Grows b c := by
  obtain ⟨-, d, hd, rfl⟩ := h
  have := grows_acts hd
  split
  · exact this
  · exact this.trans (.same rfl rfl rfl rfl)

theorem grows_idle {R : Rules} {n : Nat} {b c : Bef} (h : Idle R n b c) : Grows b c := by
  induction h with
  | zero => exact Grows.refl _
  | snoc _ _ h2 ih => exact ih.trans (grows_step h2)

theorem grows_tick {R : Rules} {b c : Bef} (h : Tick R b c) : Grows b c := by
  obtain ⟨n, d, h1, -, h2⟩ := h
  exact (grows_idle h1).trans (grows_step h2)

section
variable {R : Rules} {g : Glob} {std : Int} {f : Nat} {w : Walk} {s : St} {b : Bef}

/-- The interpreter's IP shows the machine's. -/
def Lives (g : Glob) (std : Int) (f : Nat) (b : Bef) (r : Runner) (h : Head) : Prop :=
  ∃ id parent n bn, r = befCur g std f id parent n bn (b.led h) ∧ bn.map (·.1) = h.below ∧ b.has (h.x, h.y) = true ∧ (0 ≤ h.prev ∧ h.prev ≤ 255) ∧ (h.quote = false → h.prev = 0)

theorem Lives.grows {c : Bef} {r : Runner} {h : Head} (hl : Lives g std f b r h) (hg : Grows b c) : Lives g std f c r h := by
  obtain ⟨id, parent, n, bn, h1, h2, h3, h4⟩ := hl
  exact ⟨id, parent, n, bn, h1, h2, hg.has h3, h4⟩

theorem splits_word (h : b.splits R = true) : R.many = true ∧ b.comment = false ∧ b.quote = false ∧ word R (b.cell b.x b.y) = some .split := by
  unfold Bef.splits at h
  simp only [Bool.and_eq_true, Bool.not_eq_true', decide_eq_true_eq] at h
  exact ⟨h.1.1.1, h.1.1.2, h.1.2, h.2⟩

/-- The new IP. -/
theorem clone_ref (hs : std = 93 ∨ std = 98) (hg : g.cfg.topo = .lahey) {F : Field} {a n : Nat} {o : List (List Int)} (hsh : Shown R F b) (hh : b.has (b.x, b.y) = true) :
    (befAt g std f w a F n [] o b).cur.clone (befAt g std f w a F n [] o b).g w.nextId =
      .ok (befCur g std f w.nextId (some w.id) 0 [] { b.turn.move with quote := false, prev := 0 }) := by
  obtain ⟨h9, -⟩ := next_ahead (b := b.turn) (shown_of hsh rfl rfl rfl rfl rfl) hh
  have hn : (at2s b.x b.y b.dx b.dy b.ox b.oy).reflect.next 2 .lahey F = .ok (at2s b.turn.ahead.1 b.turn.ahead.2 b.turn.dx b.turn.dy b.ox b.oy) := by
    rw [show (at2s b.x b.y b.dx b.dy b.ox b.oy).reflect = at2s b.x b.y (-b.dx) (-b.dy) b.ox b.oy by rw [IP.reflect, at2s, reverse2]; rfl]
    exact (next_storage _ (at2 b.x b.y (-b.dx) (-b.dy)) _ _ _).trans (by rw [show (at2 b.x b.y (-b.dx) (-b.dy)).next 2 .lahey F = _ from h9]; rfl)
  have hc : ∀ ip', (at2s b.x b.y b.dx b.dy b.ox b.oy).reflect.next 2 .lahey F = .ok ip' →
      (befAt g std f w a F n [] o b).cur.clone (befAt g std f w a F n [] o b).g w.nextId =
      .ok { befCur g std f w.nextId (some w.id) 0 [] { b with quote := false, prev := 0 } with ip := ip' } := by
    intro ip' h
    unfold Runner.clone
    have e1 : ((befAt g std f w a F n [] o b).cur.strats.map Strat.cloned).foldl (Strat.init (befAt g std f w a F n [] o b).cur.loaded)
        { id := w.nextId, strats := (befAt g std f w a F n [] o b).cur.strats.map Strat.cloned, ss := (befAt g std f w a F n [] o b).cur.ss.copy, ip := (befAt g std f w a F n [] o b).cur.ip,
          parent := some (befAt g std f w a F n [] o b).cur.id } =
        { befCur g std f w.nextId (some w.id) 0 [] { b with quote := false, prev := 0 } with ip := at2s b.x b.y b.dx b.dy b.ox b.oy } := by
      rcases hs with rfl | rfl <;> krfl
    have e2 : (befAt g std f w a F n [] o b).g.cfg.dims = 2 ∧ (befAt g std f w a F n [] o b).g.cfg.topo = .lahey ∧ (befAt g std f w a F n [] o b).g.field = F ∧
      (befAt g std f w a F n [] o b).g.cfg.mode = 0 := ⟨by krfl, by rw [← hg]; krfl, by krfl, by krfl⟩
    dsimp only
    rw [e1, e2.1, e2.2.1, e2.2.2.1, e2.2.2.2]
    dsimp only
    rw [h]
    dsimp only
    krfl
  rw [hc _ hn]
  krfl

/-- A split. -/
theorem split_step (hR : Rules.For R std) (hcon : g.cfg.concurrent = R.many) (hg : Rules.Around R g) (ht : R.torus = false) (H : Holds R g std f w s b) (hsp : b.splits R = true) (hb : b.below = []) (hf : 1 < f ∧ R.reach ≤ f) (k : Nat) :
    ∃ s' r, tickLoop (k + 1) s = .ok ((), s') ∧ Holds R g std f { w with rest := w.rest ++ [r], nextId := w.nextId + 1 } s' b.move ∧ Lives g std f b r b.twin := by
  obtain ⟨hm, hc, hq, hw⟩ := splits_word hsp
  obtain ⟨fk, -, hx⟩ := H.word hR hq hw (by omega)
  generalize execute fk = ex at hx
  obtain ⟨⟨F, a, n, bn, o, rfl, h1, hbn, h2⟩, h3, h4, h5, h6, h7, h8⟩ := H
  rw [hb] at hbn
  obtain rfl := List.map_eq_nil_iff.mp hbn
  have hcl := clone_ref (g := g) (f := f) (w := w) (a := a) (n := n) (o := o) hR.std (by rw [hg.1, ht, if_neg (by decide)]) (h1.shown ht) h3
  have hth : runOp ex .thread (befAt g std f w a F n [] o b) = .ok (.none,
      befAt g std f { w with rest := w.rest ++ [befCur g std f w.nextId (some w.id) 0 [] { b.turn.move with quote := false, prev := 0 }], nextId := w.nextId + 1 } a F n [] o b) := by
    show iThread _ = _
    have e1 : (befAt g std f w a F n [] o b).g.cfg.concurrent = true := by rw [← hm, ← hcon]; krfl
    have e2 : (befAt g std f w a F n [] o b).g.nextId = w.nextId := by krfl
    rw [iThread, bind_ok (getCfg_run _), e1, if_pos rfl]
    have e3 : cloneCur (befAt g std f w a F n [] o b) = .ok ((), { befAt g std f w a F n [] o b with
        rest := (befAt g std f w a F n [] o b).rest ++ [befCur g std f w.nextId (some w.id) 0 [] { b.turn.move with quote := false, prev := 0 }]
        g := { (befAt g std f w a F n [] o b).g with nextId := (befAt g std f w a F n [] o b).g.nextId + 1 } }) := by
      unfold cloneCur
      rw [e2, hcl]
    rw [bind_ok e3]
    krfl
  have H1 : Holds R g std f { w with rest := w.rest ++ [befCur g std f w.nextId (some w.id) 0 [] { b.turn.move with quote := false, prev := 0 }], nextId := w.nextId + 1 }
      (befAt g std f { w with rest := w.rest ++ [befCur g std f w.nextId (some w.id) 0 [] { b.turn.move with quote := false, prev := 0 }], nextId := w.nextId + 1 } a F n [] o b) b :=
    ⟨⟨F, a, n, [], o, rfl, h1, by rw [hb]; rfl, h2⟩, h3, h4, h5, h6, h7, h8⟩
  obtain ⟨ip', e, H2⟩ := H1.move hg ht
  refine ⟨_, _, tickLoop_none (hx.trans hth) e, H2, w.nextId, some w.id, 0, [], by krfl, hb.symm, ?_, ⟨Int.le_refl 0, (by decide : (0 : Int) ≤ 255)⟩, fun _ => rfl⟩
  exact (next_ahead (b := b.turn) (shown_of (h1.shown ht) rfl rfl rfl rfl rfl) h3).2

/-- The universe shows the machine's state. -/
structure Crowd (R : Rules) (g : Glob) (std : Int) (f : Nat) (u : Univ) (m : Many) : Prop where
  st : ∃ F a o nid, u.g = (befAt g std f ⟨0, none, [], nid⟩ a F 0 [] o m.world).g ∧ Shown R F m.world ∧ o.flatten = m.world.out
  live : Matched (Lives g std f m.world) u.runners m.heads
  comment : m.world.comment = false
  over : m.world.over = false
  code : m.world.code = none

theorem Crowd.holds {u : Univ} {m : Many} (h : Crowd R g std f u m) {r : Runner} {rs : List Runner} {hd : Head} {t : List Head} (hr : u.runners = r :: rs) (hm : m.heads = hd :: t) :
    ∃ w : Walk, w.rest = rs ∧ Holds R g std f w ⟨r, rs, u.g⟩ (m.world.led hd) ∧ Matched (Lives g std f m.world) rs t := by
  obtain ⟨⟨F, a, o, nid, e, h1, h2⟩, h3, h4, h5, h6⟩ := h
  rw [hr, hm] at h3
  cases h3 with
  | cons hl hls =>
    obtain ⟨id, parent, n, bn, l1, l2, l3, l4, l5⟩ := hl
    refine ⟨⟨id, parent, rs, nid⟩, rfl, ⟨⟨F, a, n, bn, o, ?_, .inl (shown_of h1 rfl rfl rfl rfl rfl), l2, h2⟩, l3, h4, h5, h6, l4, l5⟩, hls⟩
    rw [l1, e]
    krfl

theorem Holds.world (ht : R.torus = false) (H : Holds R g std f w s b) : (∃ F a o nid, s.g = (befAt g std f ⟨0, none, [], nid⟩ a F 0 [] o b).g ∧ Shown R F b ∧ o.flatten = b.out) := by
  obtain ⟨⟨F, a, n, bn, o, rfl, h1, hb, h2⟩, -⟩ := H
  exact ⟨F, a, o, w.nextId, by krfl, h1.shown ht, h2⟩

theorem Holds.lives (H : Holds R g std f w s b) : Lives g std f b s.cur b.head := by
  obtain ⟨⟨F, a, n, bn, o, rfl, h1, hb, h2⟩, h3, h4, h5, h6, h7, h8⟩ := H
  exact ⟨w.id, w.parent, n, bn, by krfl, hb, h3, h7, h8⟩

theorem forall_grows {c : Bef} (hg : Grows b c) {rs : List Runner} {t : List Head} (h : Matched (Lives g std f b) rs t) : Matched (Lives g std f c) rs t := by
  induction h with
  | nil => exact .nil
  | cons h _ ih => exact .cons (h.grows hg) ih

theorem forall_append {P : α → β → Prop} {a a' : List α} {c c' : List β} (h : Matched P a c) (h' : Matched P a' c') : Matched P (a ++ a') (c ++ c') := by
  induction h with
  | nil => exact h'
  | cons h _ ih => exact .cons h ih

theorem Holds.crowd (ht : R.torus = false) (H : Holds R g std f w s b) {t : List Head} (h : Matched (Lives g std f b) s.rest t) : Crowd R g std f ⟨s.rest ++ [s.cur], s.g⟩ ⟨b, t ++ [b.head]⟩ :=
  ⟨H.world ht, forall_append h (.cons H.lives .nil), H.comment, H.over, H.code⟩

/-- The program has ended: all IPs are stopped. -/
structure Gone (g : Glob) (u : Univ) (m : Many) : Prop where
  heads : m.heads = []
  stopped : ∀ r ∈ u.runners, r.ip.stopped = true
  inp : u.g.inp = m.world.inp
  code : ∃ v, m.world.code = some v ∧ u.g.exitcode = v
  out : ∃ o : List (List Int), u.g.eff = g.eff ++ o.map Eff.out ∧ o.flatten = m.world.out

theorem Gone.turn {u : Univ} {m : Many} (h : Gone g u m) : ∃ u', u.turn = .ok u' ∧ Gone g u' m := by
  obtain ⟨rs, ug⟩ := u
  cases rs with
  | nil => exact ⟨_, rfl, h⟩
  | cons r rs =>
    have hr := h.stopped r List.mem_cons_self
    refine ⟨⟨rs, ug⟩, ?_, h.heads, fun x hx => h.stopped x (List.mem_cons_of_mem _ hx), h.inp, h.code, h.out⟩
    unfold Univ.turn
    simp only [hr, if_true]

theorem Gone.turns (k : Nat) : ∀ {u : Univ} {m : Many}, Gone g u m → ∃ u', u.turns k = .ok u' ∧ Gone g u' m := by
  induction k with
  | zero => exact fun h => ⟨_, rfl, h⟩
  | succ k ih =>
    intro u m h
    obtain ⟨u1, e1, h1⟩ := h.turn
    obtain ⟨u2, e2, h2⟩ := ih h1
    exact ⟨u2, (turns_cons e1 k).trans e2, h2⟩

theorem led_head (c : Bef) : c.led c.head = c := rfl

/-- One turn. -/
theorem turn_many (hR : Rules.For R std) (hst : g.cfg.strings = if R.sgml then .sgml else .multispace) (hcon : g.cfg.concurrent = R.many) (hgt : Rules.Around R g) (ht : R.torus = false) (hf : 1 < f ∧ R.reach ≤ f) {u : Univ} {b : Bef} {h : Head} {t : List Head}
    (hc : Crowd R g std f u ⟨b, h :: t⟩) (hw : ∀ j d, Idle R j (b.led h) d → d.over = false → d.acts R ≠ [] ∨ (d.splits R = true ∧ d.below = [])) :
    (∃ u' m, u.turn = .ok u' ∧ Many.Turn R ⟨b, h :: t⟩ m ∧ (Crowd R g std f u' m ∨ Gone g u' m)) ∨ (u.turn = .error .fuel ∧ ∃ m d, f ≤ m ∧ Idle R m (b.led h) d) := by
  obtain ⟨rs, ug⟩ := u
  obtain ⟨r, rs, rfl⟩ : ∃ r rs', rs = r :: rs' := by
    have := hc.live
    cases rs with
    | nil => cases this
    | cons r rs => exact ⟨r, rs, rfl⟩
  obtain ⟨w, hrest, H, hls⟩ := hc.holds rfl rfl
  have hstop : r.ip.stopped = false := H.rest.2.1
  have hturn : ∀ {s' : St}, tick ⟨r, rs, ug⟩ = .ok ((), s') → Univ.turn ⟨r :: rs, ug⟩ = .ok ⟨if s'.cur.ip.stopped then s'.rest else s'.rest ++ [s'.cur], s'.g⟩ := by
    intro s' e
    unfold Univ.turn
    simp only [hstop, Bool.false_eq_true, if_false, e]
  rcases tick_ref hR hst hcon hgt hf (.inl H) (fun h => absurd (ht.symm.trans h) (by decide)) (fun j d h1 h2 => (hw j d h1 h2).imp_right And.left) with ⟨s', c, h1, h2, h3⟩ | ⟨s', c, j, k, h1, h2, h3, H3⟩ | ⟨h1, m, d, hm, h2⟩
  · have hg : Grows b c := Grows.trans (show Grows b (b.led h) from .same rfl rfl rfl rfl) (grows_tick h2)
    rcases h3 with H3 | H3
    · replace H3 := H3.flat ht
      obtain ⟨q1, q2, -⟩ := H3.rest
      refine .inl ⟨_, ⟨c, t ++ [c.head]⟩, hturn h1, .go h2 H3.over, .inl ?_⟩
      rw [q2]
      exact H3.crowd ht (by rw [q1, hrest]; exact forall_grows hg hls)
    · have q1 := H3.rest
      have q2 := H3.stopped
      have q3 := H3.known
      obtain ⟨s0, b0, H0, ⟨rfl, rfl⟩ | ⟨v, rfl, rfl⟩⟩ := H3
      · refine .inl ⟨_, _, hturn h1, .stop h2 rfl H0.code, .inl ?_⟩
        rw [q2, if_pos rfl, q1, if_pos (show ({ b0 with over := true } : Bef).code = none from H0.code), hrest]
        refine ⟨?_, forall_grows (hg.trans (.same rfl rfl rfl rfl)) hls, H0.comment, rfl, H0.code⟩
        obtain ⟨F, a, o, nid, e, e1, e2⟩ := H0.world ht
        exact ⟨F, a, o, nid, e, shown_of e1 rfl rfl rfl rfl rfl, e2⟩
      · refine .inl ⟨_, _, hturn h1, .quit (v := v) h2 rfl rfl, .inr ?_⟩
        rw [q2, if_pos rfl, q1, if_neg (by exact fun h => nomatch h)]
        refine ⟨rfl, fun x hx => ?_, q3.1, ⟨v, rfl, q3.2.1⟩, q3.2.2⟩
        obtain ⟨y, -, rfl⟩ := List.mem_map.mp hx
        rfl
  · have hb : c.below = [] := by
      rcases hw j c h2 H3.over with hne | ⟨-, hb⟩
      · exact absurd (acts_split h3) hne
      · exact hb
    have hg : Grows b c := Grows.trans (show Grows b (b.led h) from .same rfl rfl rfl rfl) (grows_idle h2)
    obtain ⟨s1, r1, e1, H1, hl⟩ := split_step hR hcon hgt ht H3 h3 hb hf k
    obtain ⟨q1, q2, -⟩ := H1.rest
    refine .inl ⟨_, ⟨c.move, t ++ [c.twin, c.move.head]⟩, hturn (h1.trans e1), .split h2 h3, .inl ?_⟩
    rw [q2]
    have := H1.crowd ht (t := t ++ [c.twin]) (by
      rw [q1]
      show Matched _ (w.rest ++ [r1]) _
      rw [hrest]
      exact forall_append (forall_grows (hg.trans (.same rfl rfl rfl rfl)) hls) (.cons (hl.grows (.same rfl rfl rfl rfl)) .nil))
    rw [List.append_assoc] at this
    exact this
  · refine .inr ⟨?_, m, d, hm.resolve_right (fun h => absurd (ht.symm.trans h.1) (by decide)), h2⟩
    unfold Univ.turn
    simp only [hstop, Bool.false_eq_true, if_false, h1]

theorem Ref.Many.Turns.first {n : Nat} {a c : Many} (h : Many.Turns R (n + 1) a c) : ∃ b, Many.Turn R a b ∧ Many.Turns R n b c := by
  generalize hm : n + 1 = m at h
  induction h generalizing n with
  | zero => omega
  | @snoc m a b c h1 h2 ih =>
    obtain rfl : n = m := by omega
    cases n with
    | zero => cases h1; exact ⟨c, h2, .zero _⟩
    | succ n => obtain ⟨d, h3, h4⟩ := ih rfl
                exact ⟨d, h3, .snoc h4 h2⟩

theorem Ref.Many.Turns.cons {n : Nat} {a b c : Many} (h1 : Many.Turn R a b) (h2 : Many.Turns R n b c) : Many.Turns R (n + 1) a c := by
  induction h2 with
  | zero => exact .snoc (.zero _) h1
  | snoc _ h ih => exact .snoc (ih h1) h

/-- Some turns. -/
theorem turns_many (hR : Rules.For R std) (hst : g.cfg.strings = if R.sgml then .sgml else .multispace) (hcon : g.cfg.concurrent = R.many) (hgt : Rules.Around R g) (ht : R.torus = false) (hf : 1 < f ∧ R.reach ≤ f) (k : Nat) :
    ∀ {u : Univ} {m : Many}, Crowd R g std f u m → Many.Within R m →
    (∃ u' m' n, u.turns k = .ok u' ∧ Many.Turns R n m m' ∧ n ≤ k ∧ (m'.heads ≠ [] → n = k) ∧ (Crowd R g std f u' m' ∨ Gone g u' m')) ∨
    (u.turns k = .error .fuel ∧ ∃ n b h t i d, Many.Turns R n m ⟨b, h :: t⟩ ∧ f ≤ i ∧ Idle R i (b.led h) d) := by
  induction k with
  | zero => exact fun {u m} hc hw => .inl ⟨u, m, 0, rfl, .zero _, Nat.le_refl 0, fun _ => rfl, .inl hc⟩
  | succ k ih =>
    intro u m hc hw
    obtain ⟨b, hs⟩ := m
    cases hs with
    | nil =>
      have hr : u.runners = [] := by
        have := hc.live
        cases hu : u.runners with
        | nil => rfl
        | cons r rs => rw [hu] at this; cases this
      obtain ⟨rs, ug⟩ := u
      dsimp only at hr
      subst hr
      exact .inl ⟨⟨[], ug⟩, ⟨b, []⟩, 0, turns_over _ _, .zero _, Nat.zero_le _, fun h => absurd rfl h, .inl hc⟩
    | cons h t =>
      rcases turn_many hR hst hcon hgt ht hf hc (hw 0 b h t (.zero _)) with ⟨u1, m1, e1, t1, h1⟩ | ⟨e1, i, d, h1⟩
      · rcases h1 with h1 | h1
        · rw [turns_cons e1]
          rcases ih h1 (fun n b h t ht => hw (n + 1) b h t (ht.cons t1)) with ⟨u2, m2, n, e2, t2, n1, n2, h2⟩ | ⟨e2, n, b2, h2, t2, i2, d2, e3, e4⟩
          · exact .inl ⟨u2, m2, n + 1, e2, t2.cons t1, by omega, fun h => by rw [n2 h], h2⟩
          · exact .inr ⟨e2, n + 1, b2, h2, t2, i2, d2, e3.cons t1, e4⟩
        · obtain ⟨u2, e2, h2⟩ := h1.turns k
          exact .inl ⟨u2, m1, 1, (turns_cons e1 k).trans e2, .snoc (.zero _) t1, by omega, fun h => absurd h1.heads h, .inr h2⟩
      · refine .inr ⟨?_, 0, b, h, t, i, d, .zero _, h1⟩
        unfold Univ.turns
        rw [e1]

end
end Funge
