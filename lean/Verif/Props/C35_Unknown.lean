import Verif.Lemmas.Sems
import Verif.Props.C15_Motion
import Verif.Props.C24_PutGet
/-!
# C35: unknown instructions; which characters have a meaning
-/
namespace Funge
open Exec IP

/-- Advancing never changes the direction of movement, the storage offset or whether the IP is stopped. -/
theorem next_keeps {dims : Nat} {topo : Topo} {f : Field} {ip ip' : IP} (h : ip.next dims topo f = .ok ip') :
    (∀ i, ip'.delta.get i = ip.delta.get i) ∧ ip'.storage = ip.storage ∧ ip'.stopped = ip.stopped := by
  unfold IP.next at h
  split at h
  · cases h; exact ⟨fun _ => rfl, rfl, rfl⟩
  · dsimp only at h
    split at h
    · cases h; exact ⟨fun _ => rfl, rfl, rfl⟩
    · split at h
      · cases h; exact ⟨fun _ => rfl, rfl, rfl⟩
      · split at h
        · cases h
        · cases h
          exact ⟨fun i => by simp, rfl, rfl⟩

/-- **C35** Executing a cell whose value has no meaning reverses the delta, makes one step in the new direction and changes nothing else:
stacks, fungespace, storage offset, output, other IPs. -/
theorem C35_unknown_reflects_partial (s : St) (hstr : s.cur.inString = false) (hsem : s.cur.getSem (s.g.field.get s.cur.ip.pos) = none)
    (hh : s.cur.handler = .funge) (hfuel : 0 < s.g.fuel) :
    ∃ ip', tick s = .ok ((), s.setIP ip') ∧ s.cur.ip.reflect.next s.g.cfg.dims s.g.cfg.topo s.g.field = .ok ip' ∧
      (∀ i, ip'.delta.get i = - s.cur.ip.delta.get i) ∧ ip'.storage = s.cur.ip.storage ∧ ip'.stopped = s.cur.ip.stopped := by
  obtain ⟨ip', hip⟩ := C15_always_terminates s.g.cfg.dims s.g.cfg.topo s.g.field s.cur.ip.reflect
  refine ⟨ip', ?_, hip, ?_, (next_keeps hip).2⟩
  · obtain ⟨k, hk⟩ : ∃ k, s.g.fuel = k + 1 := ⟨s.g.fuel - 1, by omega⟩
    rw [tick, bind_ok (getFuel_run s), hk, tickLoop, bind_ok (ipGet_run s), bind_ok (getFuel_run s)]
    have h1 : execute s.g.fuel (s.g.field.get s.cur.ip.pos) s = .ok (.unimp, s) := by
      rw [hk]; simp only [execute, hstr, execNormal, hsem]; rfl
    have h2 : afterExec .unimp s = .ok (.unimp, s.setIP ip') := by
      show handle .unimp s = _
      rw [handle, bind_ok (get_run s), hh]
      show (onIP IP.reflect >>= _) s = _
      rw [bind_ok (onIP_run _ _), bind_ok (ipNext_run (s := s.setIP s.cur.ip.reflect) hip)]
      rfl
    rw [bind_ok h1, bind_ok h2]
    rfl
  · intro i
    rw [(next_keeps hip).1]
    exact Vec.get_reverse _ _

/-- The characters with a meaning in Befunge-98 without fingerprints. -/
def befunge98Chars : List Int :=
  [9, 32, 33, 34, 35, 36, 37, 38, 39, 40, 41, 42, 43, 44, 45, 46, 47, 48, 49, 50, 51, 52, 53, 54, 55, 56, 57, 58, 59, 60, 61, 62, 63, 64,
   91, 92, 93, 94, 95, 96, 97, 98, 99, 100, 101, 102, 103, 105, 106, 107, 110, 111, 112, 113, 114, 115, 116, 117, 118, 119, 120, 121,
   122, 123, 124, 125, 126]

theorem newRunner_handler (cfg : Cfg) (id : Nat) (pos delta : Vec) (hs : cfg.standard ≥ 93) (hd : 1 ≤ cfg.dims) :
    (newRunner cfg id pos delta).handler = .funge := by
  have key : ∀ (l : List Strat) (r : Runner), (∀ st ∈ l, st ≠ .fish ∧ st ≠ .starfish) → r.handler = .funge →
      (l.foldl (Strat.init cfg.fingerprints) r).handler = .funge := by
    intro l
    induction l with
    | nil => intro r _ h; exact h
    | cons st t ih =>
      intro r hl h
      refine ih _ (fun x hx => hl x (by simp [hx])) ?_
      have := hl st (by simp)
      cases st <;> unfold Strat.init <;> dsimp only
      case fish => exact absurd rfl this.1
      case starfish => exact absurd rfl this.2
      case une98 => rw [pushSems_handler, loadFps_handler, h]
      all_goals rw [pushSems_handler, h]
  unfold newRunner
  dsimp only
  rw [notifyDelta_handler]
  dsimp only
  have h1 : ¬ cfg.standard = -1 := by omega
  have h2 : ¬ cfg.standard = -2 := by omega
  have h3 : strategiesFor cfg = .une93 :: (strategiesFor cfg).tail ∧ ∀ st ∈ strategiesFor cfg, st ≠ .fish ∧ st ≠ .starfish := by
    unfold strategiesFor
    rw [if_neg h1, if_neg h2, if_pos hd, if_pos hs]
    constructor
    · simp
    · intro st hst
      simp only [List.mem_append] at hst
      rcases hst with ((h | h) | h) | h <;> (repeat' split at h) <;> simp_all <;> (try rcases h with rfl | rfl) <;> simp
  rw [h3.1, List.foldl_cons]
  exact key _ _ (fun st hst => h3.2 st (by rw [h3.1]; exact List.mem_cons_of_mem _ hst)) rfl

/-- **C35** In Befunge-98 without fingerprints every cell value outside the instruction set (all letters A–Z, all values beyond the
printable characters, negative values, …) is unknown. -/
theorem C35_unassigned (cfg : Cfg) (hs : cfg.standard = 98) (hd : cfg.dims = 2) (hf : cfg.fingerprints = []) (id : Nat)
    (pos delta : Vec) (c : Int) (hc : c ∉ befunge98Chars) : (newRunner cfg id pos delta).getSem c = none := by
  have h0 : strategiesFor cfg = [.une93, .une98, .be93, .be98] := by
    unfold strategiesFor; rw [hs, hd]; rfl
  have : (newRunner cfg id pos delta).sems c = [] := by
    unfold newRunner
    dsimp only
    rw [notifyDelta_sems]
    dsimp only
    rw [h0, hf]
    simp only [List.foldl_cons, List.foldl_nil, Strat.init, Runner.loadFps]
    rw [pushSems_sems, pushSems_sems, pushSems_sems, pushSems_sems]
    have : ∀ l : List (Int × Sem), (∀ p ∈ l, p.1 ∈ befunge98Chars) → meanings l c = [] := fun l hl =>
      meanings_nil fun p hp he => hc (he ▸ hl p hp)
    rw [this _ (by decide), this _ (by decide), this _ (by decide), this _ (by decide)]
    rfl
  rw [Runner.getSem, this]; rfl

/-- **C35** A Funge-98 runner that has just started on a field whose first cell is unknown meets the hypotheses of
`C35_unknown_reflects_partial`. -/
theorem C35_reachable : ∃ s : St, s.cur.inString = false ∧ s.cur.getSem (s.g.field.get s.cur.ip.pos) = none ∧
    s.cur.handler = .funge ∧ 0 < s.g.fuel ∧ s.g.field.get s.cur.ip.pos = 65 := by
  let cfg : Cfg := { dims := 2, standard := 98 }
  let f := (Field.new 2 false).put (Vec.ofList [0]) 65
  refine ⟨{ cur := newRunner cfg 0 (Vec.ofList [0]) (Vec.ofList [1]), g := { (exState []).g with field := f, fuel := 1 } }, ?_, ?_, ?_, ?_, ?_⟩
  · unfold newRunner
    dsimp only
    rw [notifyDelta_inString]
    exact (inits_same _ _ _).inString
  · have : f.get (newRunner cfg 0 (Vec.ofList [0]) (Vec.ofList [1])).ip.pos = 65 := by
      have h1 : (newRunner cfg 0 (Vec.ofList [0]) (Vec.ofList [1])).ip.pos = Vec.ofList [0] := by
        unfold newRunner; dsimp only; rw [notifyDelta_ip]; dsimp only [IP.setDelta, IP.setPos]; split <;> rfl
      rw [h1]; decide
    show (newRunner cfg 0 (Vec.ofList [0]) (Vec.ofList [1])).getSem (f.get _) = none
    rw [this]
    exact C35_unassigned cfg rfl rfl rfl _ _ _ _ (by decide)
  · exact newRunner_handler cfg _ _ _ (by decide) (by decide)
  · exact Nat.one_pos
  · have h1 : (newRunner cfg 0 (Vec.ofList [0]) (Vec.ofList [1])).ip.pos = Vec.ofList [0] := by
      unfold newRunner; dsimp only; rw [notifyDelta_ip]; dsimp only [IP.setDelta, IP.setPos]; split <;> rfl
    show f.get (newRunner cfg 0 (Vec.ofList [0]) (Vec.ofList [1])).ip.pos = 65
    rw [h1]; decide

example : (65 : Int) ∉ befunge98Chars ∧ (300 : Int) ∉ befunge98Chars ∧ (-1 : Int) ∉ befunge98Chars ∧ (43 : Int) ∈ befunge98Chars := by decide

/-- **C35** is violated under `k`: the number of times the unknown instruction is executed, nothing happens, and the IP goes on in the
same direction. -/
theorem C35_false_under_k (fuel : Nat) (s : St) (i : Int) (hstr : s.cur.inString = false) (hsem : s.cur.getSem i = none) (n : Nat) :
    iterRun (execute (fuel + 1)) i n s = .ok ((), s) := by
  have h1 : execute (fuel + 1) i s = .ok (.unimp, s) := by
    simp only [execute, hstr, execNormal, hsem]; rfl
  induction n with
  | zero => rfl
  | succ n ih => rw [iterRun, bind_ok h1, ih]

example : (exState []).cur.inString = false ∧ (exState []).cur.getSem 65 = none := by decide

end Funge
