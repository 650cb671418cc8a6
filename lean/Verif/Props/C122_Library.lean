import Verif.Model.FungeLib
import Verif.Props.C87_Space
import Verif.Props.C32_Permissions
import Verif.Lemmas.LibRoma
import Verif.Lemmas.LibNull
import Verif.Lemmas.Krfl
/-
C122: what a library can do to the program that uses it.
-/
namespace Funge
open Exec

/-! ### What the letters for libraries do to the caller -/

/-- The letters that move, turn or stop the caller: B D F L R S X. -/
def movers : List Int := [66, 68, 70, 76, 82, 83, 88]

/-- What the letter `c` may change of the caller: the cells of its space (`P` only), its instruction pointer (letters of `movers` only; only `X` stops it), and what FISH and
*><> remember of its direction. -/
structure Touched (c : Int) (s s' : St) : Prop where
  rest : s'.rest = s.rest
  glob : s'.g = { s.g with field := s'.g.field }
  cur : s'.cur = { s.cur with ip := s'.cur.ip, fishCache := s'.cur.fishCache, starCache := s'.cur.starCache }
  field : c ≠ 80 → s'.g.field = s.g.field
  ip : c ∉ movers → s'.cur = s.cur
  stop : c ≠ 88 → s'.cur.ip.stopped = s.cur.ip.stopped

theorem Touched.refl (c : Int) (s : St) : Touched c s s := ⟨rfl, rfl, rfl, fun _ => rfl, fun _ => rfl, fun _ => rfl⟩

theorem Touched.trans {c : Int} {s t u : St} (h : Touched c s t) (h' : Touched c t u) : Touched c s u where
  rest := h'.rest.trans h.rest
  glob := h'.glob.trans (by rw [h.glob])
  cur := h'.cur.trans (by rw [h.cur])
  field hc := (h'.field hc).trans (h.field hc)
  ip hc := (h'.ip hc).trans (h.ip hc)
  stop hc := (h'.stop hc).trans (h.stop hc)

theorem touched_ip {c : Int} (hc : c ∈ movers) {s : St} {ip : IP} (h : c ≠ 88 → ip.stopped = s.cur.ip.stopped) : Touched c s { s with cur := { s.cur with ip := ip } } :=
  ⟨rfl, rfl, rfl, fun _ => rfl, fun h => absurd hc h, h⟩

theorem touched_onIP {c : Int} (hc : c ∈ movers) {f : IP → IP} {s s' : St} (h : onIP f s = .ok ((), s')) (hf : c ≠ 88 → ∀ ip, (f ip).stopped = ip.stopped) : Touched c s s' := by
  cases h; exact touched_ip hc fun h => hf h _

theorem touched_ipNext {c : Int} (hc : c ∈ movers) {s s' : St} (h : ipNext s = .ok ((), s')) : Touched c s s' := by
  unfold ipNext at h
  split at h
  · cases h
  · rename_i ip hip; cases h; exact touched_ip hc fun _ => next_stopped hip

theorem touched_tell {c : Int} (hc : c ∈ movers) (v : Vec) {s s' : St} (h : dynTell c v s = .ok ((), s')) : Touched c s s' := by
  unfold dynTell at h
  split at h
  · obtain ⟨_, s1, h1, h⟩ := bind_inv h
    obtain ⟨_, s2, h2, h⟩ := bind_inv h
    exact ((touched_onIP hc h1 (fun _ _ => rfl)).trans (touched_ipNext hc h2)).trans (touched_onIP hc h (fun _ _ => rfl))
  · split at h
    · unfold setDelta at h
      obtain ⟨b, s1, h1, h⟩ := bind_inv h
      cases h1
      cases h
      refine ⟨rfl, rfl, ?_, fun _ => rfl, fun h => absurd hc h, fun _ => ?_⟩
      · unfold notifyDelta
        dsimp only
        split <;> rfl
      · unfold notifyDelta
        dsimp only
        split <;> exact setDelta_stopped _ _ _
    · split at h
      · exact touched_ipNext hc h
      · split at h
        · exact touched_onIP hc h (fun _ _ => rfl)
        · split at h
          · exact touched_onIP hc h (fun _ _ => rfl)
          · split at h
            · exact touched_onIP hc h (fun _ _ => rfl)
            · rename_i h1 h2 h3 h4 h5 h6
              have : c = 88 := by simp only [movers, List.mem_cons, List.not_mem_nil, or_false] at hc; omega
              exact touched_onIP hc h (fun h => absurd this h)

theorem onLib_caller {α : Type} {m : Exec α} {w w' : LibSt} {a : α} (h : w.onLib m = .ok (a, w')) : w'.caller = w.caller ∧ m w.lib = .ok (a, w'.lib) := by
  unfold LibSt.onLib at h
  split at h
  · rename_i a' s' hs; cases h; exact ⟨rfl, hs⟩
  · cases h

theorem onCaller_lib {α : Type} {m : Exec α} {w w' : LibSt} {a : α} (h : w.onCaller m = .ok (a, w')) : w'.lib = w.lib ∧ m w.caller = .ok (a, w'.caller) := by
  unfold LibSt.onCaller at h
  split at h
  · rename_i a' s' hs; cases h; exact ⟨rfl, hs⟩
  · cases h

/-- One letter for libraries: the caller, and, for a relation that contains what stack operations and stopping do, the library. -/
theorem dynRun_both {R : St → St → Prop} (E : EngineC R) {c : Int} (hc : c ∈ dynLetters) {w w' : LibSt} {e : Err} (h : dynRun c w = .ok (e, w')) :
    Touched c w.caller w'.caller ∧ R w.lib w'.lib := by
  unfold dynRun at h
  split at h
  · obtain ⟨h1, h2⟩ := onLib_caller h
    refine ⟨by rw [h1]; exact .refl _ _, ?_⟩
    have : Keeps R (dynStack c) := by
      unfold dynStack dynPick dynRotate
      keep E
    exact this _ _ _ h2
  · split at h
    · obtain ⟨h1, h2⟩ := onLib_caller h
      refine ⟨by rw [h1]; exact .refl _ _, ?_⟩
      have : Keeps R (dynAsk c w.caller) := by
        unfold dynAsk
        keep E
      exact this _ _ _ h2
    · split at h
      · rename_i h80
        split at h
        · cases h
        · rename_i v n w1 h1
          obtain ⟨a1, a2⟩ := onLib_caller h1
          split at h
          · cases h
          · rename_i w2 h2
            obtain ⟨b1, b2⟩ := onCaller_lib h2
            cases h
            refine ⟨?_, ?_⟩
            · rw [a1] at b2
              have e2 := (Prod.mk.inj (Except.ok.inj b2)).2
              rw [← e2]
              exact ⟨rfl, rfl, rfl, fun h => absurd h80 h, fun _ => rfl, fun _ => rfl⟩
            · rw [b1]
              have : Keeps R (do let v ← popVector; let n ← popTop; pure (v, n)) := by keep E
              exact this _ _ _ a2
      · rename_i g1 g2 g3
        have hm : c ∈ movers := by
          simp only [dynLetters, movers, List.mem_cons, List.not_mem_nil, or_false] at hc ⊢
          omega
        split at h
        · cases h
        · rename_i v w1 h1
          obtain ⟨a1, a2⟩ := onLib_caller h1
          split at h
          · cases h
          · rename_i w2 h2
            obtain ⟨b1, b2⟩ := onCaller_lib h2
            split at h
            · cases h
            · rename_i w3 h3
              obtain ⟨d1, d2⟩ := onLib_caller h3
              cases h
              rw [a1] at b2
              refine ⟨by rw [d1]; exact touched_tell hm v b2, ?_⟩
              have k1 : Keeps R (if c = 68 ∨ c = 76 ∨ c = 83 then popVector else pure Vec.empty) := by keep E
              have k2 : Keeps R (if c = 88 then onIP IP.stop else pure ()) := by
                split
                · exact fun s b s' h => by cases h; exact E.stop s
                · exact keeps_pure E _
              rw [b1] at d2
              exact E.trans _ _ _ (k1 _ _ _ a2) (k2 _ _ _ d2)

/-! ### Whole calls -/

/-- A relation between states of the library and its caller that contains every step of the library's thread. -/
structure LibSteady (Q : LibSt → LibSt → Prop) : Prop where
  refl : ∀ w, Q w w
  trans : ∀ u v w, Q u v → Q v w → Q u w
  exec : ∀ w e w', libExec w.lib.g.fuel (w.lib.g.field.get w.lib.cur.ip.pos) w = .ok (e, w') → Q w w'
  move : ∀ w e e' w', w.onLib (libMove e) = .ok (e', w') → Q w w'

theorem LibSteady.tick {Q : LibSt → LibSt → Prop} (S : LibSteady Q) (n : Nat) {w w' : LibSt} (h : libTickLoop n w = .ok w') : Q w w' := by
  induction n generalizing w with
  | zero => cases h
  | succ n ih =>
    unfold libTickLoop at h
    split at h
    · cases h
    · rename_i e w1 h1
      split at h
      · cases h
      · rename_i e' w2 h2
        have k := S.trans _ _ _ (S.exec _ _ _ h1) (S.move _ _ _ _ h2)
        split at h
        · exact S.trans _ _ _ k (ih h)
        · cases h; exact k

theorem LibSteady.loop {Q : LibSt → LibSt → Prop} (S : LibSteady Q) (n : Nat) {w w' : LibSt} (h : libLoop n w = .ok w') : Q w w' := by
  induction n generalizing w with
  | zero => cases h
  | succ n ih =>
    unfold libLoop at h
    split at h
    · cases h; exact S.refl _
    · split at h
      · cases h
      · rename_i w1 h1
        split at h
        · exact S.trans _ _ _ (S.tick _ h1) (ih h)
        · cases h

theorem libCall_cases {f : Field} {cmd : Int} {s s' : St} {e : Err} (h : libCall f cmd s = .ok (e, s')) :
    e = .none ∧ ∃ w, libLoop s.g.fuel (libStart f cmd s) = .ok w ∧ s' = libFinish w := by
  unfold libCall at h
  split at h
  · cases h
  · rename_i w hw; cases h; exact ⟨rfl, w, hw, rfl⟩

/-- What any library may change of its caller while it runs. -/
structure Spared (s s' : St) : Prop where
  rest : s'.rest = s.rest
  glob : s'.g = { s.g with field := s'.g.field }
  cur : s'.cur = { s.cur with ip := s'.cur.ip, fishCache := s'.cur.fishCache, starCache := s'.cur.starCache }

theorem Spared.refl (s : St) : Spared s s := ⟨rfl, rfl, rfl⟩

/-- What holds of every instruction of a library's thread holds of `k` as well, which executes several. `P` says which characters may be executed in which states. -/
theorem libExec_keeps {Q : LibSt → LibSt → Prop} {P : LibSt → Int → Prop} (refl : ∀ w, Q w w) (trans : ∀ u v w, Q u v → Q v w → Q u w)
    (dyn : ∀ i w e w', P w i → i ∈ dynLetters → dynRun i w = .ok (e, w') → Q w w')
    (exe : ∀ n i w e w', P w i → w'.caller = w.caller → execute n i w.lib = .ok (e, w'.lib) → Q w w')
    (start : ∀ i w c k w', P w i → w.onLib libIterStart = .ok ((c, k), w') → Q w w' ∧ P w' c)
    (still : ∀ i w w', Q w w' → P w i → P w' i)
    (next : ∀ w w', w.onLib ipNext = .ok ((), w') → Q w w') (n : Nat) {i : Int} {w w' : LibSt} {e : Err}
    (hp : P w i) (h : libExec n i w = .ok (e, w')) : Q w w' := by
  induction n generalizing i w w' e with
  | zero =>
    unfold libExec at h
    split at h
    · rename_i hc; exact dyn _ _ _ _ hp hc.2.1 h
    · cases h
  | succ n ih =>
    unfold libExec at h
    split at h
    · rename_i hc; exact dyn _ _ _ _ hp hc.2.1 h
    · split at h
      · unfold libIterate at h
        split at h
        · cases h
        · rename_i c k w1 h1
          obtain ⟨k1, p1⟩ := start _ _ _ _ _ hp h1
          have run : ∀ (j : Nat) (u v : LibSt), P u c → libIterRun (libExec n) c j u = .ok v → Q u v := by
            intro j
            induction j with
            | zero => intro u v _ h; cases h; exact refl _
            | succ j ihj =>
              intro u v hu h
              unfold libIterRun at h
              split at h
              · cases h
              · rename_i x u1 h2
                have q := ih hu h2
                exact trans _ _ _ q (ihj _ _ (still _ _ _ q hu) h)
          split at h
          · cases h
          · rename_i w2 h2
            refine trans _ _ _ k1 (trans _ _ _ (run _ _ _ p1 h2) ?_)
            obtain ⟨g1, g2⟩ := onLib_caller h
            split at g2
            · obtain ⟨_, s1, h3, h4⟩ := bind_inv g2
              cases h4
              refine next _ _ ?_
              unfold LibSt.onLib
              rw [h3]
              obtain ⟨l, c⟩ := w'
              subst g1
              rfl
            · have e2 : w2.lib = w'.lib := (Prod.mk.inj (Except.ok.inj g2)).2
              obtain ⟨l, c⟩ := w'
              subst g1
              subst e2
              exact refl _
      · obtain ⟨g1, g2⟩ := onLib_caller h
        exact exe _ _ _ _ _ hp g1 g2

theorem engineC_true : EngineC fun _ _ => True := by constructor <;> intros <;> trivial

theorem steady_spared : LibSteady fun w w' => Spared w.caller w'.caller where
  refl _ := .refl _
  trans _ _ _ h h' := ⟨h'.rest.trans h.rest, h'.glob.trans (by rw [h.glob]), h'.cur.trans (by rw [h.cur])⟩
  exec w e w' h := by
    refine libExec_keeps (Q := fun w w' => Spared w.caller w'.caller) (P := fun _ _ => True) (fun _ => .refl _)
      (fun _ _ _ h h' => ⟨h'.rest.trans h.rest, h'.glob.trans (by rw [h.glob]), h'.cur.trans (by rw [h.cur])⟩) ?_ ?_ ?_ (fun _ _ _ _ _ => trivial) ?_ _ trivial h
    · intro i w e w' _ hc h
      have := (dynRun_both engineC_true hc h).1
      exact ⟨this.rest, this.glob, this.cur⟩
    · intro n i w e w' _ h _; rw [h]; exact .refl _
    · intro i w c k w' _ h; exact ⟨by rw [(onLib_caller h).1]; exact .refl _, trivial⟩
    · intro w w' h; rw [(onLib_caller h).1]; exact .refl _
  move w e e' w' h := by rw [(onLib_caller h).1]; exact .refl _

/-! ### C122 -/

/-- **C122** Whatever a library's code is, using one of its letters leaves of the program everything as it was but the cells of its space, its stacks, the position,
direction and offset of the IP that used it, and what it remembers of its direction: the other IPs, the permissions and all other settings, the exit code, the breakpoints, and what every
instruction means. Its stacks are in the mode of the program again. The letter never reflects by itself. -/
theorem C122_frame {f : Field} {cmd : Int} {s s' : St} {e : Err} (h : libCall f cmd s = .ok (e, s')) :
    e = .none ∧ s'.rest = s.rest ∧ s'.g.cfg = s.g.cfg ∧ s'.g.running = s.g.running ∧ s'.g.exitcode = s.g.exitcode ∧
    s'.g.breakpoints = s.g.breakpoints ∧ s'.g.watchpoints = s.g.watchpoints ∧
    s'.cur = { s.cur with ip := s'.cur.ip, ss := s'.cur.ss, fishCache := s'.cur.fishCache, starCache := s'.cur.starCache } ∧
    ∀ st ∈ s'.cur.ss.stacks, st.mode = s.g.cfg.mode := by
  obtain ⟨he, w, hw, rfl⟩ := libCall_cases h
  have k := steady_spared.loop _ hw
  have hg : w.caller.g = { s.g with field := w.caller.g.field } := k.glob
  have hcfg : w.caller.g.cfg = s.g.cfg := by rw [hg]
  refine ⟨he, k.rest, hcfg, ?_, ?_, ?_, ?_, ?_, ?_⟩
  · show w.caller.g.running = _; rw [hg]
  · show w.caller.g.exitcode = _; rw [hg]
  · show w.caller.g.breakpoints = _; rw [hg]
  · show w.caller.g.watchpoints = _; rw [hg]
  · have hc : w.caller.cur = { s.cur with ip := w.caller.cur.ip, fishCache := w.caller.cur.fishCache, starCache := w.caller.cur.starCache } := k.cur
    show { w.caller.cur with ss := w.lib.cur.ss.setMode w.caller.g.cfg.mode } = _
    rw [hc]
    rfl
  · intro st hst
    rw [← hcfg]
    obtain ⟨st', _, rfl⟩ := List.mem_map.1 hst
    rfl

theorem keeps_libIterStart {R : St → St → Prop} (E : EngineC R) : Keeps R libIterStart := by
  unfold libIterStart
  keep E

theorem engine_eff : Engine fun s s' => ∃ new, s'.g.eff = s.g.eff ++ new := by
  refine { toEngineB := ?_, toTables := ?_ }
  all_goals constructor
  case trans => intro s t u ⟨a, ha⟩ ⟨b, hb⟩; exact ⟨a ++ b, by rw [hb, ha, List.append_assoc]⟩
  case out => intro s b; exact ⟨_, rfl⟩
  case system => intro s b _; exact ⟨_, rfl⟩
  case openRead => intro s b _; exact ⟨_, rfl⟩
  case openWrite => intro s b _; exact ⟨_, rfl⟩
  case writeFile => intro s b c _; exact ⟨_, rfl⟩
  all_goals (intros; exact ⟨[], (List.append_nil _).symm⟩)

/-- **C122** What was written before stays written; a letter of a library only appends. -/
theorem C122_output {f : Field} {cmd : Int} {s s' : St} {e : Err} (h : libCall f cmd s = .ok (e, s')) : ∃ new, s'.g.eff = s.g.eff ++ new := by
  have B := engine_eff.toEngineB.base
  have S : LibSteady fun w w' => ∃ new, w'.lib.g.eff = w.lib.g.eff ++ new := {
    refl := fun _ => ⟨[], (List.append_nil _).symm⟩
    trans := fun s t u ⟨a, ha⟩ ⟨b, hb⟩ => ⟨a ++ b, by rw [hb, ha, List.append_assoc]⟩
    exec := fun w e w' h => by
      refine libExec_keeps (Q := fun w w' => ∃ new, w'.lib.g.eff = w.lib.g.eff ++ new) (P := fun _ _ => True) (fun _ => ⟨[], (List.append_nil _).symm⟩)
        (fun s t u ⟨a, ha⟩ ⟨b, hb⟩ => ⟨a ++ b, by rw [hb, ha, List.append_assoc]⟩) (fun _ _ _ _ _ hc h => (dynRun_both B hc h).2) ?_ ?_ (fun _ _ _ _ _ => trivial)
        (fun _ _ h => keeps_ipNext B _ _ _ (onLib_caller h).2) _ trivial h
      · intro n i w e w' _ _ h
        exact keeps_execute engine_eff (fits_of (fun _ _ _ _ _ _ _ _ _ => ⟨[], (List.append_nil _).symm⟩) ⟨fun _ _ => ⟨_, rfl⟩, fun _ _ => ⟨_, rfl⟩, fun _ _ => ⟨_, rfl⟩⟩) _ _ _ _ _ h
      · intro i w c k w' _ h
        exact ⟨keeps_libIterStart B _ _ _ (onLib_caller h).2, trivial⟩
    move := fun w e e' w' h => by
      have : Keeps (fun s s' => ∃ new, s'.g.eff = s.g.eff ++ new) (libMove e) := by
        unfold libMove
        refine keeps_bind B (keeps_afterExec B e) fun e => ?_
        split
        · exact keeps_bind B (keeps_ipNext B) fun _ => keeps_pure B _
        · exact keeps_pure B _
      exact this _ _ _ (onLib_caller h).2 }
  obtain ⟨_, w, hw, rfl⟩ := libCall_cases h
  exact S.loop _ hw

/-! ### Libraries that do not change themselves -/

/-- The library's code has no character that stores or loads: `(`, `)`, `i`, `p`, `s`. -/
def Field.Fixed (f : Field) : Prop := ∀ c, Met f c → c ∉ storers

theorem libStart_safe {f : Field} (hf : f.Fixed) (cmd : Int) (s : St) : (libStart f cmd s).lib.Safe87 := by
  have hm : (libRunner f cmd s).mind = (newRunner (libCfg f) s.g.nextId (Vec.ofList [0, 0, cmd - 65]) (Vec.ofList [1])).mind := rfl
  refine ⟨⟨by show hasMode 0 modeSwitch = false; decide, .inr ?_⟩, ?_⟩
  · exact (newRunner_asStarted (by show (98 : Int) ≠ -2; decide) _ _ _).congr hm
  · refine Runner.Harmless.congr (fun c hc sem hs => ?_) hm
    exact newRunner_harmless (by show (98 : Int) ≠ -2; decide) _ _ _ (hf c hc) (.inl rfl) hs

theorem libIterStart_met {s s1 : St} {c k : Int} (hs : s.Safe87) (h : libIterStart s = .ok ((c, k), s1)) : Still s s1 ∧ Met s1.g.field c := by
  unfold libIterStart at h
  rw [bind_ok (ipPos_run _)] at h
  obtain ⟨_, s2, h1, h⟩ := bind_inv h
  have k1 := keeps_ipNext engine_still _ _ _ h1
  have q1 := k1.safe hs
  rw [bind_ok (ipGet_run _)] at h
  obtain ⟨_, s3, h2, h⟩ := bind_inv h
  have k2 := keeps_getFuel engine_still _ _ _ h2
  have q2 := k2.safe q1
  obtain ⟨c', s4, h3, h⟩ := bind_inv h
  have k3 := keeps_iterSearch engine_still _ _ _ _ _ h3
  have q3 := k3.safe q2
  have m3 : Met s4.g.field c' := iterSearch_met _ _ h3 q2 (k2.met q1 ⟨_, .inr rfl⟩)
  obtain ⟨_, s5, h4, h⟩ := bind_inv h
  have k4 := keeps_onIP engine_still (·.setPos s.cur.ip.pos) (fun _ => rfl) _ _ _ h4
  have q4 := k4.safe q3
  obtain ⟨x, s6, h5, h⟩ := bind_inv h
  have k5 := keeps_popTop engine_still _ _ _ h5
  cases h
  have T := engine_still.trans
  exact ⟨T _ _ _ k1 (T _ _ _ k2 (T _ _ _ k3 (T _ _ _ k4 k5))), k5.met q4 (k4.met q3 m3)⟩

/-- Under the invariant, every letter the library executes is in its file. -/
theorem steady_fixed (f : Field) (K : St → St → Prop) (hr : ∀ s, K s s) (ht : ∀ s t u, K s t → K t u → K s u) (hK : ∀ c s s', Met f c → Touched c s s' → K s s') :
    LibSteady fun w w' => (w.lib.Safe87 ∧ w.lib.g.field = f) → (w'.lib.Safe87 ∧ w'.lib.g.field = f) ∧ K w.caller w'.caller where
  refl _ h := ⟨h, hr _⟩
  trans _ _ _ h h' b := ⟨(h' (h b).1).1, ht _ _ _ (h b).2 (h' (h b).1).2⟩
  exec w e w' h b := by
    refine libExec_keeps (Q := fun w w' => (w.lib.Safe87 ∧ w.lib.g.field = f) → (w'.lib.Safe87 ∧ w'.lib.g.field = f) ∧ K w.caller w'.caller)
      (P := fun w i => (w.lib.Safe87 ∧ w.lib.g.field = f) ∧ Met f i) (fun _ h => ⟨h, hr _⟩) (fun _ _ _ h h' b => ⟨(h' (h b).1).1, ht _ _ _ (h b).2 (h' (h b).1).2⟩)
      ?_ ?_ ?_ (fun i w w' q p => ⟨(q p.1).1, p.2⟩) ?_ _ ⟨b, ⟨w.lib.cur.ip.pos, .inl (by rw [← b.2])⟩⟩ h b
    · intro i w e w' p hc h b
      obtain ⟨k1, k2⟩ := dynRun_both engine_still hc h
      exact ⟨⟨k2.safe b.1, (k2 b.1.1).2.1.trans b.2⟩, hK _ _ _ p.2 k1⟩
    · intro n i w e w' p h1 h b
      have k := execute_still _ b.1 (by rw [b.2]; exact p.2) h
      exact ⟨⟨k.safe b.1, (k b.1.1).2.1.trans b.2⟩, by rw [h1]; exact hr _⟩
    · intro i w c k w' p h
      obtain ⟨h1, h2⟩ := onLib_caller h
      obtain ⟨k, m⟩ := libIterStart_met p.1.1 h2
      have i' : w'.lib.Safe87 ∧ w'.lib.g.field = f := ⟨k.safe p.1.1, (k p.1.1.1).2.1.trans p.1.2⟩
      exact ⟨fun _ => ⟨i', by rw [h1]; exact hr _⟩, i', by rw [← i'.2]; exact m⟩
    · intro w w' h b
      obtain ⟨h1, h2⟩ := onLib_caller h
      have k := keeps_ipNext engine_still _ _ _ h2
      exact ⟨⟨k.safe b.1, (k b.1.1).2.1.trans b.2⟩, by rw [h1]; exact hr _⟩
  move w e e' w' h b := by
    have : Keeps Still (libMove e) := by
      unfold libMove
      refine keeps_bind engine_still (keeps_afterExec engine_still e) fun e => ?_
      split
      · exact keeps_bind engine_still (keeps_ipNext engine_still) fun _ => keeps_pure engine_still _
      · exact keeps_pure engine_still _
    have k := this _ _ _ (onLib_caller h).2
    exact ⟨⟨k.safe b.1, (k b.1.1).2.1.trans b.2⟩, by rw [(onLib_caller h).1]; exact hr _⟩

/-- **C122** A library that does not change itself acts on the program only by the letters made for it, and only if they are in its file: without `P` it does not change the program's
space, without `X` it does not stop the IP (so its own `@` and `q` end the call, not the program), and without `B D F L R S X` it leaves position, direction and offset of the IP alone. -/
theorem C122_only_by_letters {f : Field} {cmd : Int} {s s' : St} {e : Err} (hf : f.Fixed) (h : libCall f cmd s = .ok (e, s')) :
    (¬ Met f 80 → s'.g.field = s.g.field) ∧ (¬ Met f 88 → s'.cur.ip.stopped = s.cur.ip.stopped) ∧ ((∀ c ∈ movers, ¬ Met f c) → s'.cur.ip = s.cur.ip) := by
  obtain ⟨_, w, hw, rfl⟩ := libCall_cases h
  have h0 : (libStart f cmd s).lib.Safe87 ∧ (libStart f cmd s).lib.g.field = f := ⟨libStart_safe hf cmd s, rfl⟩
  refine ⟨fun hc => ?_, fun hc => ?_, fun hc => ?_⟩
  · exact ((steady_fixed f (fun s s' => s'.g.field = s.g.field) (fun _ => rfl) (fun _ _ _ h h' => h'.trans h) fun c _ _ hm ht => ht.field fun e => hc (e ▸ hm)).loop _ hw h0).2
  · exact ((steady_fixed f (fun s s' => s'.cur.ip.stopped = s.cur.ip.stopped) (fun _ => rfl) (fun _ _ _ h h' => h'.trans h) fun c _ _ hm ht => ht.stop fun e => hc (e ▸ hm)).loop _ hw h0).2
  · exact ((steady_fixed f (fun s s' => s'.cur.ip = s.cur.ip) (fun _ => rfl) (fun _ _ _ h h' => h'.trans h) fun c _ _ hm ht => by
      rw [ht.ip fun hc' => hc c hc' hm]).loop _ hw h0).2

/-- The library's own space when a call has ended. -/
def libAfter (f : Field) (cmd : Int) (s : St) : Except Fault Field :=
  match libLoop s.g.fuel (libStart f cmd s) with
  | .error e => .error e
  | .ok w => .ok w.lib.g.field

/-- **C122** Such a library is after a call what it was before: its letters do the same the next time, whoever used them. -/
theorem C122_stateless {f f' : Field} {cmd : Int} {s : St} (hf : f.Fixed) (h : libAfter f cmd s = .ok f') : f' = f := by
  unfold libAfter at h
  split at h
  · cases h
  · rename_i w hw
    cases h
    exact ((steady_fixed f (fun _ _ => True) (fun _ => trivial) (fun _ _ _ _ _ => trivial) fun _ _ _ _ _ => trivial).loop _ hw ⟨libStart_safe hf cmd s, rfl⟩).1.2

/-- Letters for the caller under `k`: `A` of the library `2kR@` turns its user around three times, twice by `k` and once when it comes to `R` itself. -/
example : (libCall (Field.ofLib [61, 65, 10, 50, 107, 82, 64]) 65 (machineWith { dims := 2, standard := 98 } [[65, 64]])).toOption.map
    (fun p => (p.2.cur.ip.delta.get 0, p.2.cur.ip.delta.get 1)) = some (-1, 0) := by decide +kernel

/-! ### Permissions -/

/-- A library with one letter, `A`, that runs the command `ls`: `0"sl"=@`. -/
def exShell : List Int := [61, 65, 10, 48, 34, 115, 108, 34, 61, 64]

/-- A program that may not run commands. -/
def exForbidden : St := machineWith { dims := 2, standard := 98, execute := false } [[65, 64]]

/-- **C122** is false of permissions: the universe of a library allows everything, whatever its user is allowed. A program that may not run commands runs one by a letter of a library. -/
theorem C122_false_permissions : exForbidden.g.cfg.execute = false ∧
    ((libCall (Field.ofLib exShell) 65 exForbidden).toOption.map fun p => (p.2.g.eff, p.2.g.cfg.execute)) = some ([.system [108, 115]], false) := by
  decide +kernel

/-! ### Non-vacuity -/

theorem met_cells {f : Field} (hf : f.charCells = false) {c : Int} (h : Met f c) : c ∈ (32 :: f.cells.map (·.2)) ++ (32 :: f.cells.map (·.2)).map toChar := by
  obtain ⟨v, hv⟩ := h
  have : f.get v ∈ 32 :: f.cells.map (·.2) := by
    rcases get_stored hf v with h | h
    · rw [h]; exact List.mem_cons_self
    · exact List.mem_cons_of_mem _ h
  rcases hv with rfl | rfl
  · exact List.mem_append_left _ this
  · exact List.mem_append_right _ (List.mem_map_of_mem this)

/-- ROMA does not change itself, and has no `P`: it never changes the program's space. (It has `D`, `L` and `X`, as texts it prints.) -/
example : romaField.Fixed ∧ ¬ Met romaField 80 := by
  have k : ∀ c ∈ (32 :: romaField.cells.map (·.2)) ++ (32 :: romaField.cells.map (·.2)).map toChar, c ∉ storers ∧ c ≠ 80 := by decide +kernel
  exact ⟨fun c hc => (k c (met_cells rfl hc)).1, fun hc => (k _ (met_cells rfl hc)).2 rfl⟩

/-- A library with one letter, `A`: `12+.q`. It satisfies all hypotheses of `C122_only_by_letters`. -/
def exTiny : Field := Field.ofLib [61, 65, 10, 49, 50, 43, 46, 113]

example : exTiny.Fixed ∧ ¬ Met exTiny 80 ∧ ¬ Met exTiny 88 ∧ ∀ c ∈ movers, ¬ Met exTiny c := by
  have k : ∀ c ∈ (32 :: exTiny.cells.map (·.2)) ++ (32 :: exTiny.cells.map (·.2)).map toChar, c ∉ storers ∧ c ≠ 80 ∧ c ≠ 88 ∧ c ∉ movers := by decide +kernel
  have hf : exTiny.charCells = false := by decide +kernel
  exact ⟨fun c hc => (k c (met_cells hf hc)).1, fun hc => (k _ (met_cells hf hc)).2.1 rfl, fun hc => (k _ (met_cells hf hc)).2.2.1 rfl, fun c h hc => (k _ (met_cells hf hc)).2.2.2 h⟩

/-- Its `q` ends the call, and nothing else. -/
example : ((libCall exTiny 65 exForbidden).toOption.map fun p => (p.2.g.eff, p.2.items, p.2.cur.ip.stopped, p.2.g.running)) = some ([.out [51, 32]], [], false, true) := by decide +kernel

/-- `X` of ROMA: 10 is on the stack, the IP is where it was. -/
example : ((libCall romaField 88 exForbidden).toOption.map fun p => (p.2.items, p.2.cur.ip == exForbidden.cur.ip)) = some ([10], true) := by decide +kernel

/-- `A` of NULL turns the IP around: `R` is in its file. -/
example : ((libCall nullField 65 exForbidden).toOption.map fun p => (p.2.items, p.2.cur.ip == exForbidden.cur.ip.reflect, p.2.cur.ip == exForbidden.cur.ip)) = some ([], true, false) := by
  decide +kernel

end Funge
