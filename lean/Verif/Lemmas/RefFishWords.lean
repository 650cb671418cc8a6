import Verif.Lemmas.RefFish
import Verif.Lemmas.RefWords
/-!
Every word of the reference machine for ><> and what the interpreter does.
-/
namespace Funge
open Exec Field Ref

/-- The instruction for a word. -/
def fishOp : Swim → Op
  | .blank => .fSkip
  | .push n => .fPush n
  | .go 1 _ => .fRight
  | .go (-1) _ => .fLeft
  | .go _ 1 => .fDown
  | .go _ _ => .fUp
  | .backslash => .fMirror1
  | .slash => .fMirror2
  | .bar => .fMirrorVert
  | .dash => .fMirrorHori
  | .hash => .fMirrorAll
  | .random => .fRandom
  | .bridge => .fTrampoline
  | .cond => .fConditional
  | .jump => .fJump
  | .add => .fAdd
  | .sub => .fSub
  | .mul => .fMult
  | .div => .fDiv
  | .rem => .fModu
  | .eq => .fEqual
  | .gt => .fGreater
  | .lt => .fLess
  | .quote q => .fString q
  | .dup => .fDuplicate
  | .drop => .fRemove
  | .swap => .fSwap2
  | .rot => .fSwap3
  | .len => .fLength
  | .left => .fShiftLeft
  | .right => .fShiftRight
  | .rev => .fReverse
  | .opens => .fCreateStack
  | .closes => .fRemoveStack
  | .chr => .fOutChar
  | .num => .fOutInt
  | .input => .fIn
  | .reg => .fRegister
  | .get => .fGet
  | .put => .fPut
  | .stop => .fEnd

section
variable {R : Rules} {g : Glob} {f : Nat} {s : St} {b : Fish}

theorem swims_one {h : Int → List Int → List Fish} {r : Exec Err} (H : Swims R g f s b)
    (hne : b.one h ≠ []) (h1 : ∀ x l, b.stack = x :: l → h x l ≠ [] → FDoes R g f r s (h x l)) : FDoes R g f (checkTop 1 r) s (b.one h) := by
  unfold Fish.one at hne ⊢
  cases hl : b.stack with
  | nil => exact .dies (H.lacks (by rw [hl]; exact Nat.zero_lt_one) _) H.sinks (List.mem_singleton.mpr rfl)
  | cons x l =>
    rw [hl] at hne
    obtain ⟨e, s1, h2, h3⟩ := h1 x l hl hne
    exact ⟨e, s1, (H.check (by rw [hl]; simp) _).trans h2, h3⟩

theorem swims_two {h : Int → Int → List Int → List Fish} {r : Exec Err} (H : Swims R g f s b)
    (hne : b.two h ≠ []) (h1 : ∀ x y l, b.stack = x :: y :: l → h x y l ≠ [] → FDoes R g f r s (h x y l)) : FDoes R g f (checkTop 2 r) s (b.two h) := by
  unfold Fish.two at hne ⊢
  match hl : b.stack with
  | [] => exact .dies (H.lacks (by rw [hl]; exact Nat.zero_lt_two) _) H.sinks (List.mem_singleton.mpr rfl)
  | [x] => exact .dies (H.lacks (by rw [hl]; exact Nat.one_lt_two) _) H.sinks (List.mem_singleton.mpr rfl)
  | x :: y :: l =>
    rw [hl] at hne
    obtain ⟨e, s1, h2, h3⟩ := h1 x y l hl hne
    exact ⟨e, s1, (H.check (by rw [hl]; simp) _).trans h2, h3⟩

theorem swims_bin (H : Swims R g f s b) {op : FloatOps → Int → Int → Int} {h : Int → Int → Int} (he : ∀ y x, op g.flt y x = h y x) :
    FDoes R g f (fiBin op) s (b.two fun x y l => [b.on (h y x :: l)]) := by
  refine swims_two H ?_ fun x y l hl _ => ?_
  · unfold Fish.two; split <;> simp
  obtain ⟨s1, h1, H1⟩ := H.pop hl
  obtain ⟨s2, h2, H2⟩ := H1.pop (l := l) rfl
  obtain ⟨s3, h3, H3⟩ := H2.push (h y x)
  refine .one (s1 := s3) ?_ H3 (List.mem_singleton.mpr rfl)
  rw [bind_ok h1, bind_ok h2, bind_ok H2.getFlt, he, bind_ok h3]; rfl

theorem swims_turn (H : Swims R g f s b) {op : Exec Err} {v : Vec} {dx dy : Int} (hv : v = Vec.ofList [dx, dy])
    (h : op s = (Funge.setDelta v >>= fun _ => pure Err.none) s) : FDoes R g f op s [{ b with dx := dx, dy := dy }] := by
  subst hv
  obtain ⟨s1, h1, H1⟩ := H.setDelta dx dy
  refine .one (s1 := s1) ?_ H1 (List.mem_singleton.mpr rfl)
  rw [h, bind_ok h1]; rfl

theorem set2 (x y a c : Int) : ((Vec.ofList [x, y]).set 1 c).set 0 a = Vec.ofList [a, c] := by
  have e := eq2 (v := ((Vec.ofList [x, y]).set 1 c).set 0 a) (Vec.normal_set _ _ _) (Vec.size_set_pos _ _ _) ?_
  · rw [e, Vec.get_set_self, Vec.get_set, if_neg (by decide), Vec.get_set_self]
  · intro i hi
    rw [Vec.get_set, if_neg (by omega), Vec.get_set, if_neg (by omega), get2_more _ _ hi]

theorem set2' (x y a c : Int) : ((Vec.ofList [x, y]).set 0 a).set 1 c = Vec.ofList [a, c] := by
  have e := eq2 (v := ((Vec.ofList [x, y]).set 0 a).set 1 c) (Vec.normal_set _ _ _) (Vec.size_set_pos _ _ _) ?_
  · rw [e, Vec.get_set_self, Vec.get_set, if_neg (by decide), Vec.get_set_self]
  · intro i hi
    rw [Vec.get_set, if_neg (by omega), Vec.get_set, if_neg (by omega), get2_more _ _ hi]

theorem swims_random (H : Swims R g f s b) : FDoes R g f iGoAway s (b.perform g.flt R .random) := by
  have hr : ∃ r, 0 ≤ r ∧ r < 4 ∧ Funge.random 0 (toI64 (2 * ((2 : Nat) : Int) - 1)) s = .ok (r, s.setG { s.g with asked := s.g.asked + 1 }) := by
    refine ⟨0 + s.g.orc s.g.asked % (3 - 0 + 1), ?_, ?_, rfl⟩
    · have := Int.emod_nonneg (s.g.orc s.g.asked) (b := 4) (by decide); omega
    · have := Int.emod_lt_of_pos (s.g.orc s.g.asked) (b := 4) (by decide); omega
  obtain ⟨r, r0, r4, hr⟩ := hr
  have H1 := H.asked (s.g.asked + 1)
  have go : ∀ (v : Vec) (dx dy : Int), v = Vec.ofList [dx, dy] → (dx, dy) ∈ [(1, 0), (-1, 0), (0, 1), (0, (-1 : Int))] →
      (if r % 2 = 1 then setDelta (Vec.empty.set (r / 2).toNat (-1)) >>= fun _ => pure .none
        else setDelta (Vec.empty.set (r / 2).toNat 1) >>= fun _ => pure .none : Exec Err) = (setDelta v >>= fun _ => pure .none) →
      FDoes R g f iGoAway s (b.perform g.flt R .random) := by
    intro v dx dy hv hm he
    subst hv
    obtain ⟨s2, h2, H2⟩ := H1.setDelta dx dy
    refine .one (s1 := s2) ?_ H2 (List.mem_map.mpr ⟨_, hm, rfl⟩)
    rw [iGoAway, bind_ok (getDims_run s), H.dims, bind_ok hr]
    refine (congrFun he _).trans ?_
    rw [bind_ok h2]; rfl
  have : r = 0 ∨ r = 1 ∨ r = 2 ∨ r = 3 := by omega
  rcases this with rfl | rfl | rfl | rfl
  · exact go (Vec.empty.set 0 1) 1 0 (by decide) (by decide) rfl
  · exact go (Vec.empty.set 0 (-1)) (-1) 0 (by decide) (by decide) rfl
  · exact go (Vec.empty.set 1 1) 0 1 (by decide) (by decide) rfl
  · exact go (Vec.empty.set 1 (-1)) 0 (-1) (by decide) (by decide) rfl

/-- What is known by way of `setItems`. -/
theorem Swims.items (H : Swims R g f s b) (l : List Int) (n : Nat) : Swims R g f (s.setItems l n) (b.on l) := by
  obtain ⟨⟨F, a, m, bn, rg, o, rfl, h1, h2, h3, h4⟩, h5, h6, h7, h8⟩ := H
  exact ⟨⟨F, a, n, bn, rg, o, by krfl, shown_of h1 rfl rfl rfl rfl rfl, h2, h3, h4⟩, h5, h6, h7, h8⟩

theorem Swims.has_items (H : Swims R g f s b) : s.items = b.stack := by
  obtain ⟨⟨F, a, m, bn, rg, o, rfl, h1, h2, h3, h4⟩, h5, h6, h7, h8⟩ := H
  krfl

theorem Swims.self (H : Swims R g f s b) : s = s.setItems b.stack s.top.ops := by
  rw [← H.has_items]; exact (setItems_self H.lifo).symm

/-- A word that leaves a stack. -/
theorem swims_leaves (H : Swims R g f s b) {op : Exec Err} {l : List Int} (h : ∃ n, op (s.setItems b.stack s.top.ops) = .ok (.none, s.setItems l n)) :
    FDoes R g f op s [b.on l] := by
  obtain ⟨n, h⟩ := h
  rw [← H.self] at h
  exact .one h (H.items l n) (List.mem_singleton.mpr rfl)

theorem FDoes.via {op op' : Exec Err} {s s' : St} {r : List Fish} (h : op s = op' s') (h' : FDoes R g f op' s' r) : FDoes R g f op s r := by
  obtain ⟨e, s1, h1, h2⟩ := h'
  exact ⟨e, s1, h.trans h1, h2⟩

theorem swims_open (H : Swims R g f s b) (hne : b.perform g.flt R .opens ≠ []) : FDoes R g f fiCreateStack s (b.perform g.flt R .opens) := by
  refine swims_one H hne fun x l hl hne => ?_
  cases hx : g.flt.toI64 x with
  | none => rw [hx] at hne; exact absurd rfl hne
  | some n =>
    simp only [hx] at hne ⊢
    by_cases n0 : n < 0
    · rw [if_pos n0] at hne; exact absurd rfl hne
    rw [if_neg n0] at hne ⊢
    obtain ⟨s1, h1, H1⟩ := H.popInt hl hx
    have hp : fishPopSize s = .ok (n.toNat, s1) := by
      rw [fishPopSize, bind_ok h1, if_neg n0]; rfl
    obtain ⟨⟨F, a, m, bn, rg, o, rfl, q1, q2, q3, q4⟩, q5, q6, q7, q8⟩ := H1
    -- the new stack
    have hi : onStacks (·.insert 0) (fishAt g f a F m bn rg o (b.on l)) = .ok ((), fishAt g f a F 0 ((l, m) :: bn) rg o (b.on [])) := by krfl
    have hz : sizeSecond (fishAt g f a F 0 ((l, m) :: bn) rg o (b.on [])) = .ok (l.length, fishAt g f a F 0 ((l, m) :: bn) rg o (b.on [])) := by krfl
    refine .via ((bind_ok hp).trans ((bind_ok hi).trans (bind_ok hz))) ?_
    by_cases n1 : l.length < n.toNat
    · rw [if_pos n1] at hne ⊢
      rw [if_pos n1]
      exact .dies (s1 := fishAt g f a F 0 ((l, m) :: bn) rg o (b.on [])) (c := b) rfl ⟨by krfl, by krfl, by krfl, by krfl, o, by krfl, q2⟩ (List.mem_singleton.mpr rfl)
    rw [if_neg n1] at hne ⊢
    rw [if_neg n1]
    by_cases n2 : n ≤ 1
    · rw [if_pos n2]
      have : n = 0 ∨ n = 1 := by omega
      rcases this with rfl | rfl
      · exact .one (s1 := fishAt g f a F 0 ((l, m) :: bn) ((false, 0) :: rg) o { b with stack := [], below := l :: b.below, regs := none :: b.regs }) (by krfl)
          ⟨⟨F, a, 0, (l, m) :: bn, (false, 0) :: rg, o, rfl, shown_of q1 rfl rfl rfl rfl rfl, q2, (by rw [List.map_cons, q3]; rfl), (by rw [List.map_cons, q4]; rfl)⟩, q5, q6, q7,
            congrArg (· + 1) q8⟩ (List.mem_singleton.mpr rfl)
      · cases l with
        | nil => exact absurd (show 0 < 1 from Nat.zero_lt_one) n1
        | cons v l =>
          exact .one (s1 := fishAt g f a F 1 ((l, m + 1) :: bn) ((false, 0) :: rg) o { b with stack := [v], below := l :: b.below, regs := none :: b.regs }) (by krfl)
            ⟨⟨F, a, 1, (l, m + 1) :: bn, (false, 0) :: rg, o, rfl, shown_of q1 rfl rfl rfl rfl rfl, q2, (by rw [List.map_cons, q3]; rfl), (by rw [List.map_cons, q4]; rfl)⟩, q5, q6, q7,
              congrArg (· + 1) q8⟩ (List.mem_singleton.mpr rfl)
    · rw [if_neg n2] at hne; exact absurd rfl hne

theorem swims_close (H : Swims R g f s b) (hne : b.perform g.flt R .closes ≠ []) : FDoes R g f fiRemoveStack s (b.perform g.flt R .closes) := by
  have hns := H.numStacks
  have hsz := H.size
  obtain ⟨⟨F, a, n, bn, rg, o, rfl, q1, q2, q3, q4⟩, q5, q6, q7, q8⟩ := H
  obtain ⟨⟨c, x1, x2, x3, x4, x, y, dx, dy, st, be, ox, oy, inp, out, q, p, cm, ov, co⟩, mk, re⟩ := b
  match be, bn, q3, hns, hne with
  | [], _, _, _, hne => exact absurd rfl hne
  | _ :: _, [], q3, _, _ => cases q3
  | _ :: be, (m, k) :: bn, q3, hns, hne =>
    obtain ⟨rfl, k3⟩ := List.cons.inj q3
    match re, rg, q4, q8 with
    | [], _, _, q8 => simp at q8
    | _ :: _, [], q4, _ => cases q4
    | v :: re, w :: rg, q4, q8 =>
      obtain ⟨-, k4⟩ := List.cons.inj q4
      refine .via ((bind_ok hns).trans ((congrFun (if_neg (by omega)) _).trans ((bind_ok hns).trans ((congrFun (if_neg (by simp)) _).trans (bind_ok hsz))))) ?_
      have k8 : re.length = be.length + 1 := by simpa using q8
      match st, hne with
      | [], _ =>
        exact .one (s1 := fishAt g f a F k bn rg o ⟨⟨c, x1, x2, x3, x4, x, y, dx, dy, m, be, ox, oy, inp, out, q, p, cm, ov, co⟩, mk, re⟩) (by krfl)
          ⟨⟨F, a, k, bn, rg, o, rfl, shown_of q1 rfl rfl rfl rfl rfl, q2, k3, k4⟩, q5, q6, q7, k8⟩ (List.mem_singleton.mpr rfl)
      | [i], _ =>
        exact .one (s1 := fishAt g f a F (k + 1) bn rg o ⟨⟨c, x1, x2, x3, x4, x, y, dx, dy, i :: m, be, ox, oy, inp, out, q, p, cm, ov, co⟩, mk, re⟩) (by krfl)
          ⟨⟨F, a, k + 1, bn, rg, o, rfl, shown_of q1 rfl rfl rfl rfl rfl, q2, k3, k4⟩, q5, q6, q7, k8⟩ (List.mem_singleton.mpr rfl)
      | i :: j :: st, hne => 
        have : Fish.perform g.flt R ⟨⟨c, x1, x2, x3, x4, x, y, dx, dy, i :: j :: st, m :: be, ox, oy, inp, out, q, p, cm, ov, co⟩, mk, v :: re⟩ .closes = [] := by
          unfold Fish.perform
          simp
        exact absurd this hne

theorem swims_register (H : Swims R g f s b) (hne : b.perform g.flt R .reg ≠ []) : FDoes R g f fiRegister s (b.perform g.flt R .reg) := by
  have hp : b.perform g.flt R .reg = (match b.regs with
    | none :: r => b.one fun x l => if (g.flt.toI64 x).isSome then [{ b.on l with regs := some x :: r }] else []
    | _ => []) := rfl
  rw [hp] at hne ⊢
  match hr : b.regs with
  | [] => rw [hr] at hne; exact absurd rfl hne
  | some _ :: _ => rw [hr] at hne; exact absurd rfl hne
  | none :: r =>
    rw [hr] at hne
    have hreg : ∃ v t, s.cur.regs = (false, v) :: t ∧ t.map (·.1) = r.map Option.isSome := by
      obtain ⟨⟨F, a, n, bn, rg, o, rfl, q1, q2, q3, q4⟩, q5, q6, q7, q8⟩ := H
      rw [hr] at q4
      match rg, q4 with
      | (w, v) :: rg, q4 =>
        obtain ⟨k1, k2⟩ := List.cons.inj q4
        have k1 : w = false := k1
        subst k1
        exact ⟨v, rg, by krfl, k2⟩
    obtain ⟨v, t, h1, h2⟩ := hreg
    refine .via (op' := checkTop 1 do
      let x ← fishPopInt
      modCur fun r => { r with regs := (true, x) :: t }
      pure .none) (s' := s) ?_ (swims_one H hne fun x l hl hne => ?_)
    · rw [fiRegister, bind_ok (get_run s), h1]
    · dsimp only at hne ⊢
      cases hx : g.flt.toI64 x with
      | none => rw [hx] at hne; exact absurd rfl hne
      | some i =>
        obtain ⟨s1, h3, H1⟩ := H.popInt hl hx
        refine .via (bind_ok h3) ?_
        obtain ⟨⟨F, a, n, bn, rg, o, rfl, q1, q2, q3, q4⟩, q5, q6, q7, q8⟩ := H1
        refine .one (s1 := fishAt g f a F n bn ((true, i) :: t) o { b.on l with regs := some x :: r }) (by krfl)
          ⟨⟨F, a, n, bn, (true, i) :: t, o, rfl, shown_of q1 rfl rfl rfl rfl rfl, q2, q3, by rw [List.map_cons, h2]; rfl⟩, q5, q6, q7, ?_⟩ (List.mem_singleton.mpr rfl)
        have q8 : b.regs.length = b.below.length + 1 := q8
        rw [hr] at q8
        exact q8

theorem Swims.pushOn {l : List Int} (H : Swims R g f s (b.on l)) (v : Int) : ∃ s', pushTop v s = .ok ((), s') ∧ Swims R g f s' (b.on (v :: l)) := H.push v

theorem Swims.popOn {v : Int} {l : List Int} (H : Swims R g f s (b.on (v :: l))) : ∃ s', popTop s = .ok (v, s') ∧ Swims R g f s' (b.on l) := H.pop (v := v) rfl

theorem swims_backslash (H : Swims R g f s b) (ex : Int → Exec Err) : FDoes R g f (runOp ex (fishOp .backslash)) s (b.perform g.flt R .backslash) := by
  refine swims_turn H (v := (((Vec.ofList [b.dx, b.dy]).set 1 ((Vec.ofList [b.dx, b.dy]).get 0)).set 0 ((Vec.ofList [b.dx, b.dy]).get 1))) ?_ ?_
  · rw [set2, get2_0, get2_1]
  · show fiMirror1 s = _
    rw [fiMirror1, bind_ok H.ipDelta]

theorem swims_slash (H : Swims R g f s b) (ex : Int → Exec Err) : FDoes R g f (runOp ex (fishOp .slash)) s (b.perform g.flt R .slash) := by
  refine swims_turn H (v := (((Vec.ofList [b.dx, b.dy]).set 1 (-(Vec.ofList [b.dx, b.dy]).get 0)).set 0 (-(Vec.ofList [b.dx, b.dy]).get 1))) ?_ ?_
  · rw [set2, get2_0, get2_1]
  · show fiMirror2 s = _
    rw [fiMirror2, bind_ok H.ipDelta]

theorem swims_bar (H : Swims R g f s b) (ex : Int → Exec Err) : FDoes R g f (runOp ex (fishOp .bar)) s (b.perform g.flt R .bar) := by
  refine swims_turn H (v := ((Vec.ofList [b.dx, b.dy]).set 0 (-(Vec.ofList [b.dx, b.dy]).get 0))) ?_ ?_
  · rw [set2_0, get2_0]
  · show fiMirrorVert s = _
    rw [fiMirrorVert, bind_ok H.ipDelta]

theorem swims_dash (H : Swims R g f s b) (ex : Int → Exec Err) : FDoes R g f (runOp ex (fishOp .dash)) s (b.perform g.flt R .dash) := by
  refine swims_turn H (v := ((Vec.ofList [b.dx, b.dy]).set 1 (-(Vec.ofList [b.dx, b.dy]).get 1))) ?_ ?_
  · rw [set2_1, get2_1]
  · show fiMirrorHori s = _
    rw [fiMirrorHori, bind_ok H.ipDelta]

theorem swims_hash (H : Swims R g f s b) (ex : Int → Exec Err) : FDoes R g f (runOp ex (fishOp .hash)) s (b.perform g.flt R .hash) := by
  refine swims_turn H (v := (((Vec.ofList [b.dx, b.dy]).set 0 (-(Vec.ofList [b.dx, b.dy]).get 0)).set 1
    (-((Vec.ofList [b.dx, b.dy]).set 0 (-(Vec.ofList [b.dx, b.dy]).get 0)).get 1))) ?_ ?_
  · rw [set2', get2_0, Vec.get_set, if_neg (by decide), get2_1]
  · show fiMirrorAll s = _
    rw [fiMirrorAll, bind_ok H.ipDelta]

theorem swims_cond (H : Swims R g f s b) (ex : Int → Exec Err) (hne : b.perform g.flt R .cond ≠ []) : FDoes R g f (runOp ex (fishOp .cond)) s (b.perform g.flt R .cond) := by
  refine swims_one H hne fun x l hl _ => ?_
  obtain ⟨s1, e1, H1⟩ := H.pop hl
  dsimp only
  cases hz : g.flt.isZero x with
  | true =>
    obtain ⟨s2, e2, H2⟩ := H1.ipNext
    refine .one (s1 := s2) ?_ H2 (List.mem_singleton.mpr rfl)
    rw [bind_ok e1, bind_ok H1.getFlt, hz, if_pos rfl, bind_ok e2]; rfl
  | false =>
    refine .one (s1 := s1) ?_ H1 (List.mem_singleton.mpr rfl)
    rw [bind_ok e1, bind_ok H1.getFlt, hz]; rfl

theorem swims_jump (H : Swims R g f s b) (ex : Int → Exec Err) (hne : b.perform g.flt R .jump ≠ []) : FDoes R g f (runOp ex (fishOp .jump)) s (b.perform g.flt R .jump) := by
  refine .via (bind_ok H.getDims) (swims_two H hne fun y x l hl hne => ?_)
  cases hx : g.flt.toI64 x with
  | none => rw [hx] at hne; exact absurd rfl hne
  | some i =>
    cases hy : g.flt.toI64 y with
    | none => rw [hx, hy] at hne; exact absurd rfl hne
    | some j =>
      rw [hx, hy] at hne
      dsimp only at hne ⊢
      cases hh : b.has (i, j) with
      | false => rw [hh] at hne; exact absurd rfl hne
      | true =>
        rw [if_pos rfl]
        obtain ⟨s1, e1, H1⟩ := H.popVector hl hx hy
        obtain ⟨s2, e2, H2⟩ := H1.setPos hh
        refine .one (s1 := s2) ?_ H2 (List.mem_singleton.mpr rfl)
        rw [bind_ok e1, bind_ok e2]; rfl

theorem swims_div (H : Swims R g f s b) (ex : Int → Exec Err) (hne : b.perform g.flt R .div ≠ []) : FDoes R g f (runOp ex (fishOp .div)) s (b.perform g.flt R .div) := by
  refine swims_two H hne fun x y l hl _ => ?_
  obtain ⟨s1, e1, H1⟩ := H.pop hl
  obtain ⟨s2, e2, H2⟩ := H1.pop (l := l) rfl
  show FDoes R g f _ s (if g.flt.isZero x then [b.die] else [b.on (g.flt.div y x :: l)])
  cases hz : g.flt.isZero x with
  | true =>
    refine .dies (s1 := s2) (c := b) ?_ ⟨H2.sinks.1, H2.sinks.2, H2.sinks.3, H2.sinks.4, H2.sinks.5⟩ (List.mem_singleton.mpr rfl)
    rw [bind_ok e1, bind_ok e2, bind_ok H2.getFlt, hz]; rfl
  | false =>
    obtain ⟨s3, e3, H3⟩ := H2.push (g.flt.div y x)
    refine .one (s1 := s3) ?_ H3 (List.mem_singleton.mpr rfl)
    rw [bind_ok e1, bind_ok e2, bind_ok H2.getFlt, hz, if_neg (by decide), bind_ok e3]; rfl

theorem swims_rem (H : Swims R g f s b) (ex : Int → Exec Err) (hne : b.perform g.flt R .rem ≠ []) : FDoes R g f (runOp ex (fishOp .rem)) s (b.perform g.flt R .rem) := by
  refine swims_two H hne fun x y l hl hne => ?_
  cases hx : g.flt.toI64 x with
  | none => rw [hx] at hne; exact absurd rfl hne
  | some i =>
    cases hy : g.flt.toI64 y with
    | none => rw [hx, hy] at hne; exact absurd rfl hne
    | some j =>
      rw [hx, hy] at hne
      dsimp only at hne ⊢
      obtain ⟨s1, e1, H1⟩ := H.popInt hl hx
      obtain ⟨s2, e2, H2⟩ := H1.popInt (l := l) rfl hy
      refine .via ((bind_ok e1).trans (bind_ok e2)) ?_
      by_cases i0 : i = 0
      · rw [if_pos i0, if_pos i0]
        exact .dies (s1 := s2) (c := b) rfl ⟨H2.sinks.1, H2.sinks.2, H2.sinks.3, H2.sinks.4, H2.sinks.5⟩ (List.mem_singleton.mpr rfl)
      rw [if_neg i0] at hne
      rw [if_neg i0, if_neg i0]
      by_cases hp : 0 < i ∧ 0 ≤ j
      · rw [if_pos hp, if_neg (by omega)]
        obtain ⟨s3, e3, H3⟩ := H2.fishPush (j.tmod i)
        rw [Int.tmod_eq_emod_of_nonneg hp.2] at e3 H3
        refine .one (s1 := s3) ?_ H3 (List.mem_singleton.mpr rfl)
        rw [Int.tmod_eq_emod_of_nonneg hp.2, bind_ok e3]; rfl
      · rw [if_neg hp] at hne; exact absurd rfl hne

theorem swims_dup (H : Swims R g f s b) (ex : Int → Exec Err) (hne : b.perform g.flt R .dup ≠ []) : FDoes R g f (runOp ex (fishOp .dup)) s (b.perform g.flt R .dup) := by
  refine swims_one H hne fun x l hl _ => ?_
  obtain ⟨s1, e1, H1⟩ := H.pop hl
  obtain ⟨s2, e2, H2⟩ := H1.push x
  obtain ⟨s3, e3, H3⟩ := H2.push x
  refine .one (s1 := s3) ?_ H3 (List.mem_singleton.mpr rfl)
  rw [bind_ok e1, bind_ok e2, bind_ok e3]; rfl

theorem swims_swap (H : Swims R g f s b) (ex : Int → Exec Err) (hne : b.perform g.flt R .swap ≠ []) : FDoes R g f (runOp ex (fishOp .swap)) s (b.perform g.flt R .swap) := by
  refine swims_two H hne fun x y l hl _ => ?_
  obtain ⟨s1, e1, H1⟩ := H.pop hl
  obtain ⟨s2, e2, H2⟩ := H1.pop (l := l) rfl
  obtain ⟨s3, e3, H3⟩ := H2.push x
  obtain ⟨s4, e4, H4⟩ := H3.push y
  refine .one (s1 := s4) ?_ H4 (List.mem_singleton.mpr rfl)
  rw [bind_ok e1, bind_ok e2, bind_ok e3, bind_ok e4]; rfl

theorem swims_rot (H : Swims R g f s b) (ex : Int → Exec Err) : FDoes R g f (runOp ex (fishOp .rot)) s (b.perform g.flt R .rot) := by
  have hp : b.perform g.flt R .rot = (match b.stack with
    | x :: y :: z :: l => [b.on (y :: z :: x :: l)]
    | _ => [b.die]) := rfl
  rw [hp]
  match hl : b.stack with
  | [] => exact .dies (H.lacks (by rw [hl]; simp) _) H.sinks (List.mem_singleton.mpr rfl)
  | [x] => exact .dies (H.lacks (by rw [hl]; simp) _) H.sinks (List.mem_singleton.mpr rfl)
  | [x, y] => exact .dies (H.lacks (by rw [hl]; simp) _) H.sinks (List.mem_singleton.mpr rfl)
  | x :: y :: z :: l =>
    obtain ⟨s1, e1, H1⟩ := H.pop hl
    obtain ⟨s2, e2, H2⟩ := H1.popOn
    obtain ⟨s3, e3, H3⟩ := H2.popOn
    obtain ⟨s4, e4, H4⟩ := H3.pushOn x
    obtain ⟨s5, e5, H5⟩ := H4.pushOn z
    obtain ⟨s6, e6, H6⟩ := H5.pushOn y
    refine .one (s1 := s6) ?_ H6 (List.mem_singleton.mpr rfl)
    refine (H.check (by rw [hl]; simp) _).trans ?_
    rw [bind_ok e1, bind_ok e2, bind_ok e3, bind_ok e4, bind_ok e5, bind_ok e6]; rfl

theorem swims_left (H : Swims R g f s b) (ex : Int → Exec Err) (hne : b.perform g.flt R .left ≠ []) : FDoes R g f (runOp ex (fishOp .left)) s (b.perform g.flt R .left) := by
  have hp : b.perform g.flt R .left = (match b.stack.getLast? with
    | some x => [b.on (x :: b.stack.dropLast)]
    | none => []) := rfl
  rw [hp] at hne ⊢
  cases hl : b.stack.getLast? with
  | none => rw [hl] at hne; exact absurd rfl hne
  | some x =>
    refine .via (H.selected _) (swims_leaves H ?_)
    have e : b.stack = b.stack.dropLast ++ [x] := by
      obtain ⟨ys, h⟩ := List.getLast?_eq_some_iff.mp hl
      rw [h, List.dropLast_concat]
    have := shiftLeft_run H.lifo b.stack.dropLast x s.top.ops
    rw [← e] at this
    exact this

theorem swims_right (H : Swims R g f s b) (ex : Int → Exec Err) (hne : b.perform g.flt R .right ≠ []) : FDoes R g f (runOp ex (fishOp .right)) s (b.perform g.flt R .right) := by
  have hp : b.perform g.flt R .right = (match b.stack with
    | x :: l => [b.on (l ++ [x])]
    | [] => []) := rfl
  rw [hp] at hne ⊢
  cases hl : b.stack with
  | nil => rw [hl] at hne; exact absurd rfl hne
  | cons x l =>
    refine .via (H.selected _) (swims_leaves H ?_)
    have := shiftRight_run H.lifo l x s.top.ops
    rw [← hl] at this
    exact this

theorem swims_chr (H : Swims R g f s b) (ex : Int → Exec Err) (hne : b.perform g.flt R .chr ≠ []) : FDoes R g f (runOp ex (fishOp .chr)) s (b.perform g.flt R .chr) := by
  refine swims_one H hne fun x l hl hne => ?_
  dsimp only at hne ⊢
  cases hx : g.flt.toI64 x with
  | none => rw [hx] at hne; exact absurd rfl hne
  | some i =>
    rw [hx] at hne
    dsimp only at hne ⊢
    by_cases hi : 0 ≤ i ∧ i ≤ 127
    · rw [if_pos hi]
      obtain ⟨s1, e1, H1⟩ := H.popInt hl hx
      obtain ⟨s2, e2, H2⟩ := H1.emit [i]
      refine .one (s1 := s2) ?_ H2 (List.mem_singleton.mpr rfl)
      have : toChar i = i := Int.bmod_eq_of_le (by omega) (by omega)
      rw [bind_ok e1, this, bind_ok e2]; rfl
    · rw [if_neg hi] at hne; exact absurd rfl hne

theorem swims_num (H : Swims R g f s b) (ex : Int → Exec Err) (hne : b.perform g.flt R .num ≠ []) : FDoes R g f (runOp ex (fishOp .num)) s (b.perform g.flt R .num) := by
  refine swims_one H hne fun x l hl hne => ?_
  dsimp only at hne ⊢
  cases hx : g.flt.toI64 x with
  | none => rw [hx] at hne; exact absurd rfl hne
  | some i =>
    dsimp only
    obtain ⟨s1, e1, H1⟩ := H.pop hl
    have e2 : fishInt x s1 = .ok (i, s1) := by rw [fishInt, bind_ok H1.getFlt, hx]; rfl
    refine .via ((bind_ok e1).trans ((bind_ok H1.getFlt).trans (bind_ok e2))) ?_
    cases he : g.flt.eq x (g.flt.ofInt i) with
    | true =>
      obtain ⟨s2, e3, H2⟩ := H1.emit (Bef.numeral i)
      rw [if_pos rfl]
      refine .one (s1 := s2) ?_ H2 (List.mem_singleton.mpr rfl)
      rw [← numeral_eq, bind_ok e3]; rfl
    | false =>
      obtain ⟨s2, e3, H2⟩ := H1.emit (g.flt.text x)
      rw [if_neg (by decide)]
      refine .one (s1 := s2) ?_ H2 (List.mem_singleton.mpr rfl)
      rw [bind_ok e3]; rfl

theorem swims_input (H : Swims R g f s b) (ex : Int → Exec Err) : FDoes R g f (runOp ex (fishOp .input)) s (b.perform g.flt R .input) := by
  have hp : b.perform g.flt R .input = (match b.inp with
    | c :: t => [{ b.on (g.flt.ofInt c :: b.stack) with inp := t }]
    | [] => [b.on (g.flt.ofInt (-1) :: b.stack)]) := rfl
  rw [hp]
  have hi := H.inp
  have hn := H.noFile
  cases hb : b.inp with
  | nil =>
    obtain ⟨s1, e1, H1⟩ := H.fishPush (-1)
    refine .one (s1 := s1) ?_ H1 (List.mem_singleton.mpr rfl)
    have hc : getChar s = .ok (none, s) := by
      unfold getChar
      rw [hi, hb]
    show fiIn s = _
    rw [fiIn, bind_ok (get_run s), hn]
    refine (bind_ok hc).trans ((H.selected _).trans ?_)
    show (Funge.fishPush (-1) >>= _) s = _
    rw [bind_ok e1]; rfl
  | cons c t =>
    have H0 := H.input t
    obtain ⟨s1, e1, H1⟩ := H0.fishPush c
    refine .one (s1 := s1) ?_ H1 (List.mem_singleton.mpr rfl)
    have hc : getChar s = .ok (some c, s.setG { s.g with inp := t }) := by
      unfold getChar
      rw [hi, hb]; rfl
    show fiIn s = _
    rw [fiIn, bind_ok (get_run s), hn]
    refine (bind_ok hc).trans ((H0.selected _).trans ?_)
    show (Funge.fishPush c >>= _) _ = _
    rw [bind_ok e1]; rfl

theorem swims_get (H : Swims R g f s b) (ex : Int → Exec Err) (hne : b.perform g.flt R .get ≠ []) : FDoes R g f (runOp ex (fishOp .get)) s (b.perform g.flt R .get) := by
  refine .via (bind_ok H.getDims) (swims_two H hne fun y x l hl hne => ?_)
  cases hx : g.flt.toI64 x with
  | none => rw [hx] at hne; exact absurd rfl hne
  | some i =>
    cases hy : g.flt.toI64 y with
    | none => rw [hx, hy] at hne; exact absurd rfl hne
    | some j =>
      rw [hx, hy] at hne
      dsimp only at hne ⊢
      by_cases hh : b.cell i j = 32
      · rw [if_pos hh] at hne; exact absurd rfl hne
      · rw [if_neg hh]
        obtain ⟨s1, e1, H1⟩ := H.popVector hl hx hy
        obtain ⟨s2, e2, H2⟩ := H1.fishPush (b.cell i j)
        refine .one (s1 := s2) ?_ H2 (List.mem_singleton.mpr rfl)
        rw [bind_ok H.storage, bind_ok e1, add_zero2, bind_ok (H1.fieldGet i j)]
        show (Funge.fishPush (b.cell i j) >>= _) _ = _
        rw [bind_ok e2]; rfl

theorem swims_put (H : Swims R g f s b) (ex : Int → Exec Err) (hne : b.perform g.flt R .put ≠ []) : FDoes R g f (runOp ex (fishOp .put)) s (b.perform g.flt R .put) := by
  have hp : b.perform g.flt R .put = (match b.stack with
    | y :: x :: v :: l =>
      match g.flt.toI64 x, g.flt.toI64 y, g.flt.toI64 v with
      | some x, some y, some v => ((b.on l).toBef.store R x y v).map fun c => { b with toBef := c }
      | _, _, _ => []
    | _ => [b.die]) := rfl
  rw [hp] at hne ⊢
  refine .via (bind_ok H.getDims) ?_
  match hl : b.stack with
  | [] => exact .dies (H.lacks (by rw [hl]; simp) _) H.sinks (List.mem_singleton.mpr rfl)
  | [x] => exact .dies (H.lacks (by rw [hl]; simp) _) H.sinks (List.mem_singleton.mpr rfl)
  | [x, y] => exact .dies (H.lacks (by rw [hl]; simp) _) H.sinks (List.mem_singleton.mpr rfl)
  | y :: x :: v :: l =>
    rw [hl] at hne
    dsimp only at hne ⊢
    cases hx : g.flt.toI64 x with
    | none => rw [hx] at hne; exact absurd rfl hne
    | some i =>
      cases hy : g.flt.toI64 y with
      | none => rw [hx, hy] at hne; exact absurd rfl hne
      | some j =>
        cases hv : g.flt.toI64 v with
        | none => rw [hx, hy, hv] at hne; exact absurd rfl hne
        | some k =>
          rw [hx, hy, hv] at hne
          dsimp only at hne ⊢
          cases hst : (b.on l).toBef.store R i j k with
          | nil => rw [hst] at hne; exact absurd rfl hne
          | cons c t =>
            obtain ⟨s1, e1, H1⟩ := H.popVector hl hx hy
            obtain ⟨s2, e2, H2⟩ := H1.popInt (l := l) rfl hv
            obtain ⟨s3, e3, H3⟩ := H2.fieldPut (c := c) (x := i) (y := j) (v := k) (by
              show c ∈ (b.on l).toBef.store R i j k
              rw [hst]; exact List.mem_cons_self)
            refine .one (s1 := s3) ?_ H3 (List.mem_map.mpr ⟨c, List.mem_cons_self, rfl⟩)
            refine (H.check (by rw [hl]; simp) _).trans ?_
            rw [bind_ok H.storage, bind_ok e1, bind_ok e2, add_zero2, bind_ok e3]; rfl

/-- **Every word** does what its instruction does. -/
theorem swims_perform (H : Swims R g f s b) (ex : Int → Exec Err) {c : Int} {w : Swim} (hw : swims.lookup c = some w) (h1 : w ≠ .blank) (h2 : w ≠ .stop)
    (hne : b.perform g.flt R w ≠ []) : FDoes R g f (runOp ex (fishOp w)) s (b.perform g.flt R w) := by
  have hgo : ∀ p ∈ swims, ∀ dx dy, p.2 = .go dx dy → (dx, dy) ∈ [(1, 0), (-1, 0), (0, 1), (0, (-1 : Int))] := by
    intro p hp dx dy he
    have all : ∀ p ∈ swims, (match p.2 with | .go dx dy => decide ((dx, dy) ∈ [(1, 0), (-1, 0), (0, 1), (0, (-1 : Int))]) | _ => true) = true := by decide
    have := all p hp
    rw [he] at this
    simpa using this
  have hm : (c, w) ∈ swims := by
    clear hgo
    generalize swims = l at hw
    induction l with
    | nil => cases hw
    | cons p t ih =>
      rw [List.lookup_cons] at hw
      split at hw
      · rename_i hc
        have : c = p.1 := by simpa using hc
        subst this; cases hw; exact List.mem_cons_self
      · exact List.mem_cons_of_mem _ (ih hw)
  cases w with
  | blank => exact absurd rfl h1
  | stop => exact absurd rfl h2
  | push n =>
    obtain ⟨s1, e1, H1⟩ := H.fishPush n
    refine .one (s1 := s1) ?_ H1 (List.mem_singleton.mpr rfl)
    show fiPush n s = _
    rw [fiPush, H.selected, bind_ok e1]; rfl
  | go dx dy =>
    have hd := hgo _ hm dx dy rfl
    simp only [List.mem_cons, Prod.mk.injEq, List.not_mem_nil, or_false] at hd
    rcases hd with ⟨rfl, rfl⟩ | ⟨rfl, rfl⟩ | ⟨rfl, rfl⟩ | ⟨rfl, rfl⟩ <;> exact swims_turn H rfl rfl
  | backslash => exact swims_backslash H ex
  | slash => exact swims_slash H ex
  | bar => exact swims_bar H ex
  | dash => exact swims_dash H ex
  | hash => exact swims_hash H ex
  | random => exact swims_random H
  | bridge =>
    obtain ⟨s1, e1, H1⟩ := H.ipNext
    refine .one (s1 := s1) ?_ H1 (List.mem_singleton.mpr rfl)
    show iTrampoline s = _
    rw [iTrampoline, bind_ok e1]; rfl
  | cond => exact swims_cond H ex hne
  | jump => exact swims_jump H ex hne
  | add => exact swims_bin H fun _ _ => rfl
  | sub => exact swims_bin H fun _ _ => rfl
  | mul => exact swims_bin H fun _ _ => rfl
  | eq => exact swims_bin H fun _ _ => rfl
  | gt => exact swims_bin H fun _ _ => rfl
  | lt => exact swims_bin H fun _ _ => rfl
  | div => exact swims_div H ex hne
  | rem => exact swims_rem H ex hne
  | quote q =>
    obtain ⟨s1, e1, H1⟩ := H.quoted q
    refine .one (s1 := s1) ?_ H1 (List.mem_singleton.mpr rfl)
    show iString q s = _
    rw [iString, bind_ok e1]; rfl
  | dup => exact swims_dup H ex hne
  | drop =>
    refine swims_one H hne fun x l hl _ => ?_
    obtain ⟨s1, e1, H1⟩ := H.pop hl
    refine .one (s1 := s1) ?_ H1 (List.mem_singleton.mpr rfl)
    rw [bind_ok e1]; rfl
  | swap => exact swims_swap H ex hne
  | rot => exact swims_rot H ex
  | len =>
    obtain ⟨s1, e1, H1⟩ := H.fishPush b.stack.length
    refine .one (s1 := s1) ?_ H1 (List.mem_singleton.mpr rfl)
    refine (H.selected _).trans ?_
    rw [bind_ok H.size, bind_ok e1]; rfl
  | left => exact swims_left H ex hne
  | right => exact swims_right H ex hne
  | rev => exact .via (H.selected _) (swims_leaves H (reverse_run H.lifo _ _))
  | opens => exact swims_open H hne
  | closes => exact swims_close H hne
  | chr => exact swims_chr H ex hne
  | num => exact swims_num H ex hne
  | input => exact swims_input H ex
  | reg => exact swims_register H hne
  | get => exact swims_get H ex hne
  | put => exact swims_put H ex hne

end
end Funge
