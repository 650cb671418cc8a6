import Verif.Props.C83_Mvrs
import Verif.Props.C28_Iterate
/-
C85: what `k` repeats when the IP is away from home.
-/
namespace Funge
open Exec MExec IP

/-- **C85** is violated: `1k` of an IP that is in another universe than the one it is from executes the instruction that is at the next place in the universe it is from,
`u`, whatever is there in the one it is in. The next place is that in the universe it is in. -/
theorem C85_false_iterate {exec : Int → MExec Err} {s : St} {o : List Uni} (h : s.Lifo) {l : List Int} (hi : s.items = 1 :: l) {n : List Int} {u : Uni}
    (hh : s.cur.home = some n) (hu : Multi.find ⟨s, o⟩ n = some u) {ip1 : IP} (hn : s.cur.ip.next s.g.cfg.dims s.g.cfg.topo s.g.field = .ok ip1)
    {c : Int} (hc : u.field.get ip1.pos = c) (hr : 33 ≤ c ∧ c ≤ 126 ∧ c ≠ 59) (hf : 0 < s.g.fuel) :
    ∃ ip0 s0, SameMotion ip0 s.cur.ip ∧ (s.setIP ip0).Leaves s0 l ∧
      (∀ e, exec c ⟨s0, o⟩ = .error e → mrunOp exec .iterate ⟨s, o⟩ = .error e) ∧
      ∀ e w, exec c ⟨s0, o⟩ = .ok (e, w) → mrunOp exec .iterate ⟨s, o⟩ = .ok (.none, w) := by
  have hl : (s.setIP (ip1.setPos s.cur.ip.pos)).Lifo := h
  obtain ⟨f, hf⟩ : ∃ f, s.g.fuel = f + 1 := ⟨s.g.fuel - 1, by omega⟩
  have hch : toChar c = c := by unfold toChar; rw [Int.bmod_def]; split <;> omega
  have hk : (toInt 1).toNat = 1 := by decide
  refine ⟨ip1.setPos s.cur.ip.pos, (s.setIP (ip1.setPos s.cur.ip.pos)).setItems l (s.top.ops + 1), fun i => ⟨rfl, (next_keeps hn).1 i⟩, ⟨_, rfl⟩, ?_⟩
  have hhere : mvHere ⟨s.setIP ip1, o⟩ = .ok (c, ⟨s.setIP ip1, o⟩) := by
    have : Multi.homeField ⟨s.setIP ip1, o⟩ = some u.field := by
      unfold Multi.homeField
      have e : (s.setIP ip1).cur.home = some n := hh
      simp only [e]
      have : Multi.find ⟨s.setIP ip1, o⟩ n = some u := hu
      rw [this]; rfl
    unfold mvHere
    rw [this]
    show Except.ok (u.field.get ip1.pos, _) = _
    rw [hc]
  have hsearch : iterSearch (s.setIP ip1).g.fuel (toChar c) (s.setIP ip1) = .ok (c, s.setIP ip1) := by
    rw [show (s.setIP ip1).g.fuel = f + 1 from hf, hch]
    unfold iterSearch
    rw [if_neg (by omega), if_neg (by omega)]
    rfl
  have hpop : popTop (s.setIP (ip1.setPos s.cur.ip.pos)) = .ok (1, (s.setIP (ip1.setPos s.cur.ip.pos)).setItems l (s.top.ops + 1)) := by
    apply run_items hl
    rw [show (s.setIP (ip1.setPos s.cur.ip.pos)).items = 1 :: l from hi]
    exact popTop_run hl _ _
  have hrun : mrunOp exec .iterate ⟨s, o⟩ = (mvIterRun exec c 1 >>= fun _ => here (if toInt 1 = 0 then ipNext else pure ()) >>= fun _ => pure Err.none : MExec Err)
      ⟨(s.setIP (ip1.setPos s.cur.ip.pos)).setItems l (s.top.ops + 1), o⟩ := by
    show mvIterate exec ⟨s, o⟩ = _
    have hpos : ipPos s = .ok (s.cur.ip.pos, s) := rfl
    rw [mvIterate, mbind_ok (here_ok hpos), mbind_ok (here_ok (ipNext_run hn)), mbind_ok hhere, mbind_ok (here_ok (getFuel_run _)), mbind_ok (here_ok hsearch),
      mbind_ok (here_ok (onIP_run _ _))]
    refine (mbind_ok (here_ok hpop)).trans ?_
    rw [hk]
  constructor
  · intro e he
    rw [hrun]
    show MExec.seq (MExec.seq (exec c) _) _ _ = _
    unfold MExec.seq
    rw [he]
  · intro e w he
    rw [hrun]
    have h1 : mvIterRun exec c 1 ⟨(s.setIP (ip1.setPos s.cur.ip.pos)).setItems l (s.top.ops + 1), o⟩ = .ok ((), w) := by
      show (exec c >>= fun _ => pure () : MExec Unit) _ = _
      rw [mbind_ok he]; rfl
    rw [mbind_ok h1, if_neg (by decide)]
    rfl

/-- **C85** is violated: an IP that is in another universe than the one it is from writes into the field of the latter with `p`, and the universe it is in stays as it is
(`Leaves`). -/
theorem C85_false_put {exec : Int → MExec Err} {s : St} {o : List Uni} (h : s.Lifo) {v : Vec} {x : Int} {l : List Int} (hi : s.items = coords s.g.cfg.dims v ++ x :: l)
    (hv : v.InDim s.g.cfg.dims) {n : List Int} {u : Uni} (hh : s.cur.home = some n) (hu : Multi.find ⟨s, o⟩ n = some u) (hk : Field.UniqueKeys u.field.cells) :
    ∃ s' o' f', mrunOp exec .put ⟨s, o⟩ = .ok (.none, ⟨s', o'⟩) ∧ s.Leaves s' l ∧ Multi.find ⟨s', o'⟩ n = some { u with field := f' } ∧
      ∀ q, f'.get q = if (v.add s.cur.ip.storage).eqv q then kept u.field x else u.field.get q := by
  obtain ⟨w1, p1, e1⟩ := popCoords h v (x :: l) s.top.ops
  refine ⟨s.setItems l (s.top.ops + s.g.cfg.dims + 1), (Multi.change ⟨s, o⟩ n fun u => { u with field := u.field.put (w1.add s.cur.ip.storage) x }).others,
    u.field.put (w1.add s.cur.ip.storage) x, ?_, ⟨_, rfl⟩, ?_, fun q => ?_⟩
  · show mvPut ⟨s, o⟩ = _
    conv => lhs; rw [← setItems_self h, hi]
    rw [mvPut]
    refine (mbind_ok (here_ok (ipStorage_run _))).trans ?_
    refine (mbind_ok (here_ok p1)).trans ?_
    refine (mbind_ok (here_ok (popTop_run h _ _))).trans ?_
    have : (s.setItems (x :: l).tail (s.top.ops + s.g.cfg.dims + 1)).cur.home = some n := hh
    simp only [this]
    rfl
  · have hf : ∀ o : List Uni, (o.find? fun u => u.cfg.name == n) = some u →
        ((o.map fun v => if v.cfg.name == n then { v with field := v.field.put (w1.add s.cur.ip.storage) x } else v).find? fun u => u.cfg.name == n) =
          some { u with field := u.field.put (w1.add s.cur.ip.storage) x } := by
      intro o
      induction o with
      | nil => intro h; cases h
      | cons a t ih =>
        intro h
        rw [List.map_cons]
        cases ha : a.cfg.name == n with
        | true =>
          rw [List.find?_cons, ha] at h
          cases h
          rw [if_pos rfl, List.find?_cons]
          simp only [ha]
        | false =>
          rw [List.find?_cons, ha] at h
          rw [if_neg (by decide), List.find?_cons, ha]
          exact ih h
    exact hf o hu
  · rw [Field.get_put hk]
    have : (w1.add s.cur.ip.storage).eqv q = (v.add s.cur.ip.storage).eqv q := by
      rw [Bool.eq_iff_iff, Vec.eqv_iff, Vec.eqv_iff]
      simp only [Vec.get_add, sameVec_eqv hv e1]
    rw [this]
    rfl

/-- An IP of universe A, at (0, 0) of B, which holds `k8`; A holds `@7`. -/
def exAway (l : List Int) : Multi :=
  ⟨{ (machineWith { name := [66], dims := 2, standard := 98, execute := false } [[107, 56]]).setItems l 0 with
      cur := { ((machineWith { name := [66], dims := 2, standard := 98, execute := false } [[107, 56]]).setItems l 0).cur with home := some [65] } },
    [{ exUni with cfg := { exUni.cfg with name := [65] }, field := (machineWith { dims := 2, standard := 98 } [[64, 55]]).g.field }]⟩

example : (exAway [1, 9]).st.Lifo ∧ (exAway [1, 9]).st.items = [1, 9] ∧ (exAway [1, 9]).st.cur.home = some [65] ∧ 0 < (exAway [1, 9]).st.g.fuel ∧
    ((exAway [1, 9]).find [65]).map (fun u => u.field.get (Vec.ofList [1, 0])) = some 55 ∧
    (match (exAway [1, 9]).st.cur.ip.next 2 (exAway [1, 9]).st.g.cfg.topo (exAway [1, 9]).st.g.field with
      | .ok ip => ip.pos.eqv (Vec.ofList [1, 0])
      | .error _ => false) = true :=
  ⟨by decide +kernel, by decide +kernel, by decide +kernel, by decide +kernel, by decide +kernel, by decide +kernel⟩

example : (exAway [0, 1, 5, 9]).st.items = coords 2 (Vec.ofList [1, 0]) ++ 5 :: [9] ∧ (Vec.ofList [1, 0]).InDim 2 ∧
    ((exAway [0, 1, 5, 9]).find [65]).isSome = true ∧ Field.UniqueKeys (machineWith { dims := 2, standard := 98 } [[64, 55]]).g.field.cells :=
  ⟨by decide +kernel, by intro i hi; exact Vec.get_of_size_le _ (Nat.le_trans (by decide) hi), by decide +kernel, by unfold Field.UniqueKeys; decide +kernel⟩

/-- `1k` with `8` beside it executes the `7` of A. -/
example : Multi.after (exAway [1, 9]) [mexecute 107] = some [7, 9] := by decide +kernel

/-- `3k` repeats a letter of MVRS: `C` pushes the number of universes three times. -/
example : (match (do mtick; mtick; mtick : MExec Unit) ⟨(machineWith { name := [65], dims := 2, standard := 98, execute := false } [[40, 51, 107, 67]]).setItems
      [4, 77, 86, 82, 83] 0, [exUni]⟩ with
    | .ok (_, w) => some w.st.items
    | .error _ => none) = some [2, 2, 2, 1, 0x4D565253] := by decide +kernel

end Funge
