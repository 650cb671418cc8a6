import Verif.Lemmas.LibPath
import Verif.Lemmas.LibNull
/-!
C72: every instruction of NULL, a fingerprint written in Funge (`fing/NULL.fl`), reflects.
-/
namespace Funge
open Lib Exec

theorem null_dims : nullField.dims = 3 := rfl

theorem null_cells : ∀ k : Fin 26, nullField.get (Vec.ofList [0, 0, (k.val : Int)]) = 82 ∧ nullField.get (Vec.ofList [1, 0, (k.val : Int)]) = 64 ∧
    ({ pos := Vec.ofList [0, 0, (k.val : Int)] } : IP).next 3 .lahey nullField = .ok { pos := Vec.ofList [1, 0, (k.val : Int)] } := by
  decide +kernel

/-- A library's thread and another caller. -/
def LibSt.withCaller (w : LibSt) (t : St) : LibSt := { w with caller := t }

theorem onLib_withCaller {α : Type} (m : Exec α) (w : LibSt) (t : St) {a : α} {w' : LibSt} (h : w.onLib m = .ok (a, w')) :
    (w.withCaller t).onLib m = .ok (a, w'.withCaller t) := by
  unfold LibSt.onLib at *
  show (match m w.lib with | .ok (a, s) => _ | .error e => _) = _
  cases hm : m w.lib with
  | error e => rw [hm] at h; cases h
  | ok q => rw [hm] at h; cases h; rfl

section
variable {s : St} {cmd : Int}

theorem null_R (c : Cf) (n f : Nat) (hc : c.str = false) :
    libExec f 82 (cf nullField cmd s c n) = .ok (.none, (cf nullField cmd s c n).withCaller (s.setIP s.cur.ip.reflect)) := by
  cases f <;>
  · unfold libExec
    rw [if_pos ⟨hc, by decide, by rw [cf_getSem null_dims]; decide⟩]
    rfl

theorem libExec_other (f : Nat) (i : Int) (hi : i ∉ dynLetters) (w : LibSt) (hr : w.repeats i = false) : libExec f i w = w.onLib (execute f i) := by
  cases f with
  | zero => unfold libExec; exact if_neg fun h => hi h.2.1
  | succ f =>
    unfold libExec
    rw [if_neg fun h => hi h.2.1, if_neg (by rw [hr]; simp)]

theorem null_repeats (c : Cf) (n : Nat) : (cf nullField cmd s c n).repeats 64 = false := by
  unfold LibSt.repeats
  rw [cf_getSem null_dims, show sem 64 = some ⟨.stop, false⟩ by decide]
  simp

theorem null_repeats' (c : Cf) (n : Nat) (t : St) : ((cf nullField cmd s c n).withCaller t).repeats 64 = false := null_repeats c n

/-- After the call `s` has been reflected, and is otherwise as it was. -/
theorem null_run (hk : 65 ≤ cmd ∧ cmd ≤ 90) (h : s.Synced) (hf : 3 ≤ s.g.fuel) :
    ∃ s', libCall nullField cmd s = .ok (.none, s') ∧ (s.setIP s.cur.ip.reflect).Answers s' s.items [] := by
  obtain ⟨k, hk⟩ : ∃ k : _root_.Fin 26, cmd - 65 = (k.val : Int) :=
    ⟨⟨(cmd - 65).toNat, by omega⟩, by show cmd - 65 = (((cmd - 65).toNat : Nat) : Int); omega⟩
  obtain ⟨g1, g2, g3⟩ := null_cells k
  rw [← hk] at g1 g2 g3
  have e1 : libExec s.g.fuel (nullField.get (Vec.ofList [0, 0, cmd - 65])) (cf nullField cmd s (start cmd s.items s.g.eff) s.top.ops) =
      .ok (.none, (cf nullField cmd s (start cmd s.items s.g.eff) s.top.ops).withCaller (s.setIP s.cur.ip.reflect)) := by
    rw [g1]; exact null_R _ _ _ rfl
  have m1 : (cf nullField cmd s (start cmd s.items s.g.eff) s.top.ops).onLib (libMove .none) =
      .ok (.none, cf nullField cmd s (atEast cmd 1 0 s.items s.g.eff) s.top.ops) := by
    unfold LibSt.onLib
    rw [libMove_run (ip' := { pos := Vec.ofList [1, 0, cmd - 65] }) (.inl rfl) g3]
    rfl
  have m2 := onLib_withCaller _ _ (s.setIP s.cur.ip.reflect) m1
  obtain ⟨x, e2⟩ := exec_of_sem (F := nullField) (cmd := cmd) (s := s) (c := atEast cmd 1 0 s.items s.g.eff) (n := s.top.ops) (f := s.g.fuel) (i := 64)
    (sm := ⟨.stop, false⟩) null_dims (by omega) rfl (by decide) (by decide)
  have e3 : (cf nullField cmd s (atEast cmd 1 0 s.items s.g.eff) s.top.ops).onLib (execute s.g.fuel 64) =
      .ok (.none, cf nullField cmd s { atEast cmd 1 0 s.items s.g.eff with ip := (atEast cmd 1 0 s.items s.g.eff).ip.stop } s.top.ops) := by
    rw [← libExec_other _ _ (by decide) _ (null_repeats _ _), e2]; rfl
  have e4 := onLib_withCaller _ _ (s.setIP s.cur.ip.reflect) e3
  rw [← libExec_other _ _ (by decide) _ (null_repeats' _ _ _), ← g2] at e4
  have m3 : (cf nullField cmd s { atEast cmd 1 0 s.items s.g.eff with ip := (atEast cmd 1 0 s.items s.g.eff).ip.stop } s.top.ops).onLib (libMove .none) =
      .ok (.none, cf nullField cmd s { atEast cmd 1 0 s.items s.g.eff with ip := (atEast cmd 1 0 s.items s.g.eff).ip.stop } s.top.ops) := by
    unfold LibSt.onLib
    rw [libMove_run (ip' := (atEast cmd 1 0 s.items s.g.eff).ip.stop) (.inl rfl) rfl]
    rfl
  have m4 := onLib_withCaller _ _ (s.setIP s.cur.ip.reflect) m3
  obtain ⟨f, hfu⟩ : ∃ f, s.g.fuel = f + 3 := ⟨s.g.fuel - 3, by omega⟩
  have hl : libLoop s.g.fuel (libStart nullField cmd s) = .ok ((cf nullField cmd s { atEast cmd 1 0 s.items s.g.eff with
      ip := (atEast cmd 1 0 s.items s.g.eff).ip.stop } s.top.ops).withCaller (s.setIP s.cur.ip.reflect)) := by
    rw [libStart_cf h]
    conv => lhs; rw [hfu]
    rw [libLoop, if_neg (by show ¬ false = true; simp)]
    show go s.g.fuel (f + 2) _ = _
    conv => lhs; rw [hfu]
    rw [go_succ (.inl rfl) e1 m2 rfl, if_neg (by decide), libLoop, if_neg (by show ¬ false = true; simp)]
    show go s.g.fuel (f + 1) _ = _
    conv => lhs; rw [hfu]
    rw [go_succ (.inl rfl) e4 m4 rfl, if_neg (by decide), libLoop]
    exact if_pos rfl
  refine ⟨libFinish _, by unfold libCall; rw [hl], s.top.ops, ?_⟩
  unfold libFinish
  have hm := finish_mode (F := nullField) (cmd := cmd) h s.items s.top.ops
  show St.mk { (s.setIP s.cur.ip.reflect).cur with ss := (((libStart nullField cmd s).lib.setItems s.items s.top.ops).cur.ss).setMode s.g.cfg.mode } _ _ = _
  rw [hm]
  show _ = St.mk _ _ { s.g with nextId := s.g.nextId + 1, eff := s.g.eff ++ [] }
  rw [List.append_nil]
  rfl

/-- Every letter of NULL turns the thread around, and changes nothing else (C72). -/
theorem C72_reflects (hk : 65 ≤ cmd ∧ cmd ≤ 90) (h : s.Synced) (hf : 3 ≤ s.g.fuel) :
    ∃ s' v, libCall nullLib cmd s = .ok (.none, s') ∧ (∀ i, v.get i = -s.cur.ip.delta.get i) ∧
      (s.setIP { s.cur.ip with delta := v }).Answers s' s.items [] := by
  obtain ⟨s', h1, h2⟩ := null_run hk h hf
  rw [nullLib_eq]
  exact ⟨s', _, h1, fun i => Vec.get_reverse _ i, h2⟩

end

/-- NULL binds all the letters (C72). -/
theorem C72_letters : ∀ c : Int, c ∈ libLetters nullLib ↔ 65 ≤ c ∧ c ≤ 90 := by
  intro c
  rw [nullLib_eq]
  show c ∈ nullField.planes ↔ _
  simp only [nullField, List.mem_cons, List.not_mem_nil, or_false]
  omega

example : ∃ s' v, libCall nullLib 81 (libState [3, 4]) = .ok (.none, s') ∧ (∀ i, v.get i = -(libState [3, 4]).cur.ip.delta.get i) ∧
    ((libState [3, 4]).setIP { (libState [3, 4]).cur.ip with delta := v }).Answers s' [3, 4] [] :=
  C72_reflects (by decide) (libState_synced _) (by decide)

end Funge
