import Verif.Lemmas.BlindRun
import Verif.Lemmas.Krfl
import Verif.Props.C86_Isolation
import Verif.Props.C57_IIPC
/-
C114: what an IP does does not depend on what the other IPs are doing.
-/
namespace Funge
open Exec

/-! ### Specification -/

/-- The IPs of both lists have the same IDs and the same stacks, one by one. Where they are, where they are going, what they have loaded and whether they have been
stopped may be as different as can be. -/
def SameFaces (l l' : List Runner) : Prop := l.map (fun r => (r.id, r.ss)) = l'.map (fun r => (r.id, r.ss))

/-- From the same start, `o` beside some IPs and `o'` beside others come to the same: the same result, the same IP, the same of what is shared, or the same fault.
The others are related by `R`. -/
def SameOutcome {α : Type} (R : List Runner → List Runner → Prop) (o o' : Except Fault (α × St)) : Prop :=
  (∃ e, o = .error e ∧ o' = .error e) ∨
  ∃ a s s', o = .ok (a, s) ∧ o' = .ok (a, s') ∧ s'.cur = s.cur ∧ s'.g = s.g ∧ R s.rest s'.rest

/-- The IPs `l` and `l'` have become of `m` and `m'` by the same change of every IP, and the same IPs were added behind them. -/
def Treated (m m' l l' : List Runner) : Prop := ∃ (change : Runner → Runner) (new : List Runner), l = m.map change ++ new ∧ l' = m'.map change ++ new

/-! ### Proof -/

theorem SameFaces.append {l l' k k' : List Runner} (h : SameFaces l l') (h' : SameFaces k k') : SameFaces (l ++ k) (l' ++ k') := by
  unfold SameFaces at *
  rw [List.map_append, List.map_append, h, h']

instance guise_faces : Guise SameFaces where
  child l l' r h := h.append rfl
  kill l l' h := by
    unfold SameFaces at *
    rw [List.map_map, List.map_map]
    exact h
  mode l l' m h := by
    unfold SameFaces at *
    rw [List.map_map, List.map_map]
    have := congrArg (List.map fun p : Nat × StackStack => (p.1, p.2.setMode m)) h
    rw [List.map_map, List.map_map] at this
    exact this

theorem shows_faces : Shows SameFaces where
  ids l l' h := by
    have := congrArg (List.map Prod.fst) h
    rw [List.map_map, List.map_map] at this
    exact this
  stacks {α} id f l := by
    induction l with
    | nil =>
      intro l' h
      cases l' with
      | nil => exact .inl ⟨rfl, rfl⟩
      | cons r t => cases h
    | cons r t ih =>
      intro l' h
      cases l' with
      | nil => cases h
      | cons r' t' =>
        obtain ⟨h1, h2⟩ := List.cons.inj h
        have hid : r.id = r'.id := congrArg Prod.fst h1
        have hss : r.ss = r'.ss := congrArg Prod.snd h1
        unfold onListTop
        rw [← hid, ← hss]
        by_cases hi : (r.id : Int) = id
        · simp only [if_pos hi]
          cases r.ss.at' r.ss.select with
          | error e => exact .inr (.inl ⟨e, rfl, rfl⟩)
          | ok st =>
            refine .inr (.inr ⟨_, _, _, rfl, rfl, ?_⟩)
            unfold SameFaces
            rw [List.map_cons, List.map_cons, h2, hid]
        · simp only [if_neg hi]
          rcases ih t' h2 with ⟨h3, h4⟩ | ⟨e, h3, h4⟩ | ⟨a, k, k', h3, h4, hk⟩
          · rw [h3, h4]; exact .inl ⟨rfl, rfl⟩
          · rw [h3, h4]; exact .inr (.inl ⟨e, rfl, rfl⟩)
          · rw [h3, h4]
            refine .inr (.inr ⟨a, _, _, rfl, rfl, ?_⟩)
            unfold SameFaces
            rw [List.map_cons, List.map_cons, hid, hss]
            exact congrArg _ hk

instance guise_treated (m m' : List Runner) : Guise (Treated m m') where
  child l l' r := fun ⟨F, new, h, h'⟩ => ⟨F, new ++ [r], by rw [h, List.append_assoc], by rw [h', List.append_assoc]⟩
  kill l l' := fun ⟨F, new, h, h'⟩ => ⟨fun r => { F r with ip := (F r).ip.stop }, new.map fun r => { r with ip := r.ip.stop },
    by rw [h, List.map_append, List.map_map]; rfl, by rw [h', List.map_append, List.map_map]; rfl⟩
  mode l l' x := fun ⟨F, new, h, h'⟩ => ⟨fun r => { F r with ss := (F r).ss.setMode x }, new.map fun r => { r with ss := r.ss.setMode x },
    by rw [h, List.map_append, List.map_map]; rfl, by rw [h', List.map_append, List.map_map]; rfl⟩

theorem Treated.start (m m' : List Runner) : Treated m m' m m' := ⟨id, [], by simp, by simp⟩

theorem Blind.outcome {α : Type} {R : List Runner → List Runner → Prop} {m : Exec α} (h : Blind R m) {r : Runner} {l l' : List Runner} {g : Glob} (hl : R l l') :
    SameOutcome R (m ⟨r, l, g⟩) (m ⟨r, l', g⟩) := by
  rcases h r l l' g hl with ⟨e, h1, h2⟩ | ⟨a, c', k, k', g', h1, h2, hk⟩
  · exact .inl ⟨e, h1, h2⟩
  · exact .inr ⟨a, _, _, h1, h2, rfl, rfl, hk⟩

/-- **C114** In its turn an IP does the same wherever the other IPs are, wherever they are going, whatever they have loaded, whether they have been stopped or not:
of the others it can see no more than their IDs and their stacks. -/
theorem C114_tick {r : Runner} {rest rest' : List Runner} {g : Glob} (h : SameFaces rest rest') :
    SameOutcome SameFaces (tick ⟨r, rest, g⟩) (tick ⟨r, rest', g⟩) := (blind_tick shows_faces).outcome h

/-- **C114** The same of a turn in the universe: what is shared afterwards is the same, and so are the IDs and stacks of all, and the IP whose turn it was. -/
theorem C114_turn {r : Runner} {rest rest' : List Runner} {g : Glob} (h : SameFaces rest rest') :
    (∃ e, (⟨r :: rest, g⟩ : Univ).turn = .error e ∧ (⟨r :: rest', g⟩ : Univ).turn = .error e) ∨
    ∃ v v' : Univ, (⟨r :: rest, g⟩ : Univ).turn = .ok v ∧ (⟨r :: rest', g⟩ : Univ).turn = .ok v' ∧ v.g = v'.g ∧ SameFaces v.runners v'.runners := by
  cases hs : r.ip.stopped with
  | true => exact .inr ⟨_, _, turn_stopped hs rest g, turn_stopped hs rest' g, rfl, h⟩
  | false =>
    rcases C114_tick (r := r) (g := g) h with ⟨e, h1, h2⟩ | ⟨a, s, s', h1, h2, hc, hg, hk⟩
    · refine .inl ⟨e, ?_, ?_⟩
      · unfold Univ.turn; simp [hs, h1]
      · unfold Univ.turn; simp [hs, h2]
    · refine .inr ⟨_, _, turn_tick hs h1, turn_tick hs h2, hg.symm, ?_⟩
      unfold St.univ
      rw [hc]
      dsimp only
      split
      · exact hk
      · exact hk.append rfl

/-- An instruction other than `k` does not ask for the execution of another. -/
theorem runOp_apart {exec exec' : Int → Exec Err} {op : Op} (h : op ≠ .iterate) : runOp exec op = runOp exec' op := by
  cases op <;> first | rfl | exact absurd rfl h

/-- **C114** An instruction that is not one of IIPC sees nothing of the other IPs at all, and treats them all alike: beside any other IPs at all its result, what becomes
of the IP and what becomes of what is shared are the same; whatever it does to another IP it does to every one; and it adds the same new IPs. -/
theorem C114_instruction {n : Nat} {i : Int} {r : Runner} {rest rest' : List Runner} {g : Glob}
    (h : r.inString = true ∨ ∀ sem, r.getSem i = some sem → sem.op ≠ .iterate ∧ ∀ c, sem.op ≠ .fing .IIPC c) :
    SameOutcome (Treated rest rest') (execute n i ⟨r, rest, g⟩) (execute n i ⟨r, rest', g⟩) := by
  have hb : ∀ {m : Exec Err}, Blind (Treated rest rest') m → SameOutcome (Treated rest rest') (m ⟨r, rest, g⟩) (m ⟨r, rest', g⟩) :=
    fun hm => hm.outcome (Treated.start _ _)
  cases n with
  | zero => exact .inl ⟨_, rfl, rfl⟩
  | succ n =>
    unfold execute
    dsimp only
    split
    · exact hb (blind_execString i)
    · rename_i hs
      have h := h.resolve_left hs
      unfold execNormal
      dsimp only
      cases hg : r.getSem i with
      | none => exact hb (blind_pure Err.unimp)
      | some sem =>
        obtain ⟨h1, h2⟩ := h sem hg
        dsimp only
        split
        · exact hb (blind_pure Err.skip)
        · refine hb ?_
          rw [runOp_apart (exec' := fun _ => pure .none) h1]
          exact blind_runOp (fun _ => blind_pure _) sem.op fun ⟨c, hc⟩ => absurd hc (h2 c)

/-- **C114** Their IDs and stacks it can see: with `L` of IIPC the first of two IPs sees what is on top of the stack of the second. -/
theorem C114_sees_stacks (k : Int) : (match iipcLook (exPair [7, 3, 9] [k]) with | .ok (e, s) => (e, s.items) | .error _ => (.unimp, [])) = (.none, [k, 3, 9]) := by krfl

/-- Two IPs with the same IDs and stacks as in `exTwoIPs`, the second of them elsewhere, on another course, in string mode, and stopped. -/
def exElsewhere : List Runner :=
  exTwoIPs.runners.tail.map fun r => { r with inString := true, ip := { r.ip with pos := Vec.ofList [5, 9], delta := Vec.ofList [-1, 0], stopped := true } }

/-- The hypothesis of `C114_tick` and `C114_turn` is met by IPs that have not much else in common. -/
example : exElsewhere.length = 1 ∧ SameFaces exTwoIPs.runners.tail exElsewhere ∧ exElsewhere.map (·.ip.pos) ≠ exTwoIPs.runners.tail.map (·.ip.pos) := by
  refine ⟨rfl, rfl, ?_⟩
  decide +kernel

/-- The hypothesis of `C114_instruction` is met by every instruction of a program that has not loaded IIPC, but for `k`; here by `t`, `q`, and `p`. -/
example : ∀ i ∈ [116, 113, 112], ∀ sem, (machine [116]).cur.getSem i = some sem → sem.op ≠ .iterate ∧ ∀ c, sem.op ≠ .fing .IIPC c := by
  intro i hi sem hs
  have : ((machine [116]).cur.getSem 116).map (·.op) = some .thread ∧ ((machine [116]).cur.getSem 113).map (·.op) = some .quit ∧
    ((machine [116]).cur.getSem 112).map (·.op) = some .put := by decide +kernel
  have h : sem.op = .thread ∨ sem.op = .quit ∨ sem.op = .put := by
    rcases List.mem_cons.mp hi with rfl | hi
    · rw [hs] at this; exact .inl (Option.some.inj this.1)
    rcases List.mem_cons.mp hi with rfl | hi
    · rw [hs] at this; exact .inr (.inl (Option.some.inj this.2.1))
    rcases List.mem_cons.mp hi with rfl | hi
    · rw [hs] at this; exact .inr (.inr (Option.some.inj this.2.2))
    cases hi
  rcases h with h | h | h <;> rw [h] <;> refine ⟨?_, ?_⟩ <;> intros <;> intro h <;> cases h

/-- And it says something: `q` beside no other IP and beside another one ends both. -/
example : (match execute 5 113 ⟨exTwoIPs.runners.headD {}, exTwoIPs.runners.tail, exTwoIPs.g⟩ with
    | .ok (_, s) => s.rest.map (·.ip.stopped)
    | .error _ => []) = [true] := by decide +kernel

end Funge
