import Verif.Lemmas.RefRun
import Verif.Props.C64_Input
import Verif.Props.C27_SysInfo
/-!
Every word of the reference machine and what the interpreter does.
-/
namespace Funge
open Exec Field Ref

theorem numeral_digits (fuel : Nat) : ∀ (n : Nat) (l : List Char) (m : List Int), l.map (fun c => (c.toNat : Int)) = m →
    (Nat.toDigitsCore 10 fuel n l).map (fun c => (c.toNat : Int)) = decLoop fuel n m := by
  have dig : ∀ n : Nat, ((Nat.digitChar (n % 10)).toNat : Int) = ((48 + n % 10 : Nat) : Int) := by
    intro n
    have h : n % 10 < 10 := Nat.mod_lt _ (by decide)
    have all : ∀ k, k < 10 → ((Nat.digitChar k).toNat : Int) = ((48 + k : Nat) : Int) := by decide
    exact all _ h
  induction fuel with
  | zero => intro n l m h; exact h
  | succ fuel ih =>
    intro n l m h
    unfold Nat.toDigitsCore decLoop
    dsimp only
    split
    · rw [List.map_cons, dig, h]
    · exact ih _ _ _ (by rw [List.map_cons, dig, h])

theorem numeral_eq (v : Int) : Bef.numeral v = decimal v := by
  unfold Bef.numeral decimal Nat.toDigits
  rw [numeral_digits _ _ [] [] rfl]
  split <;> rfl

section
variable {R : Rules} {fl : Bool} {g : Glob} {std : Int} {f : Nat} {w : Walk} {s : St} {b : Bef}

theorem Holds.emit (H : Holds R g std f w s b) (l : List Int) : ∃ s', Exec.emit (.out l) s = .ok ((), s') ∧ Holds R g std f w s' { b with out := b.out ++ l } := by
  obtain ⟨⟨F, a, n, bn, o, rfl, h1, hb, h2⟩, h3, h4, h5, h6, h7, h8⟩ := H
  refine ⟨_, rfl, ⟨F, a, n, bn, o ++ [l], ?_, plane_of h1 rfl rfl rfl rfl rfl, hb, by simp [h2]⟩, h3, h4, h5, h6, h7, h8⟩
  have e : g.eff ++ (o ++ [l]).map Eff.out = (g.eff ++ o.map Eff.out) ++ [.out l] := by simp
  unfold befAt
  rw [e]
  krfl

theorem Holds.input (H : Holds R g std f w s b) (t : List Int) : Holds R g std f w (s.setG { s.g with inp := t }) { b with inp := t } := by
  obtain ⟨⟨F, a, n, bn, o, rfl, h1, hb, h2⟩, h3, h4, h5, h6, h7, h8⟩ := H
  exact ⟨⟨F, a, n, bn, o, by krfl, plane_of h1 rfl rfl rfl rfl rfl, hb, h2⟩, h3, h4, h5, h6, h7, h8⟩

theorem Holds.inp (H : Holds R g std f w s b) : s.g.inp = b.inp := by
  obtain ⟨⟨F, a, n, bn, o, rfl, -⟩, -⟩ := H
  krfl

theorem Holds.asked (H : Holds R g std f w s b) (a : Nat) : Holds R g std f w (s.setG { s.g with asked := a }) b := by
  obtain ⟨⟨F, a', n, bn, o, rfl, h1, hb, h2⟩, h3, h4, h5, h6, h7, h8⟩ := H
  exact ⟨⟨F, a, n, bn, o, by krfl, h1, hb, h2⟩, h3, h4, h5, h6, h7, h8⟩

theorem Holds.dims (H : Holds R g std f w s b) : s.g.cfg.dims = 2 := by
  obtain ⟨⟨F, a', n, bn, o, rfl, h1, hb, h2⟩, -⟩ := H
  krfl

theorem Holds.noMode (H : Holds R g std f w s b) (m : Nat) : isMode m s = .ok (false, s) := by
  obtain ⟨⟨F, a', n, bn, o, rfl, h1, hb, h2⟩, -⟩ := H
  have : isMode m (befAt g std f w a' F n bn o b) = .ok (hasMode 0 m, befAt g std f w a' F n bn o b) := by krfl
  rw [this]
  have : hasMode 0 m = false := by unfold hasMode; simp
  rw [this]

theorem Holds.quoted (H : Holds R g std f w s b) : ∃ s', enterString 34 s = .ok ((), s') ∧ Holds R g std f w s' { b with quote := true } := by
  obtain ⟨⟨F, a, n, bn, o, rfl, h1, hb, h2⟩, h3, h4, h5, h6, h7, h8⟩ := H
  exact ⟨_, rfl, ⟨F, a, n, bn, o, by krfl, plane_of h1 rfl rfl rfl rfl rfl, hb, h2⟩, h3, h4, h5, h6, h7, by intro h; cases h⟩

/-- What an instruction does when its word can do one of `r`: one of these, or, if it fails (`fl`), one of these once the IP is turned around. -/
def Does (R : Rules) (g : Glob) (std : Int) (f : Nat) (w : Walk) (fl : Bool) (op : Exec Err) (s : St) (r : List Bef) : Prop :=
  ∃ e s1, op s = .ok (e, s1) ∧ ((e = .none ∧ ∃ c ∈ r, Holds R g std f w s1 c) ∨ ((e = .unspec ∨ e = .notavail) ∧ fl = true ∧ ∃ c, c.turn ∈ r ∧ Holds R g std f w s1 c))

theorem Does.one {fl : Bool} {op : Exec Err} {s1 : St} {c : Bef} {r : List Bef} (h : op s = .ok (.none, s1)) (H : Holds R g std f w s1 c) (hc : c ∈ r) : Does R g std f w fl op s r :=
  ⟨_, _, h, .inl ⟨rfl, c, hc, H⟩⟩

theorem replace_replace (b : Bef) (i j : Nat) (l : List Int) : (b.replace i []).replace j l = b.replace (i + j) l := by
  unfold Bef.replace; simp [List.drop_drop]

theorem replace_two (b : Bef) (i : Nat) (x y : Int) : (b.replace i [y]).replace 0 [x] = b.replace i [x, y] := by
  unfold Bef.replace; simp

theorem top_replace (b : Bef) : (b.replace 1 []).top = b.next := by unfold Bef.replace Bef.top Bef.next; simp

theorem does_bin (H : Holds R g std f w s b) {op : Int → Int → Except Fault Int} {v : Int} (hne : b.result v ≠ []) (hv : InI64 v → op b.next b.top = .ok v) :
    Does R g std f w fl (iBin op) s (b.result v) := by
  unfold Bef.result at hne ⊢
  split at hne
  · rename_i hr
    rw [if_pos hr]
    obtain ⟨s1, h1, H1⟩ := H.pop
    obtain ⟨s2, h2, H2⟩ := H1.pop
    obtain ⟨s3, h3, H3⟩ := H2.push v
    rw [top_replace] at h2
    rw [replace_replace, replace_replace] at H3
    refine .one (s1 := s3) ?_ H3 (List.mem_singleton.mpr rfl)
    rw [iBin, bind_ok h1, bind_ok h2, hv hr, bind_ok (show lift (.ok v) s2 = .ok (v, s2) from rfl), bind_ok h3]; rfl
  · exact absurd rfl hne

theorem does_go (hs : std = 93 ∨ std = 98) (H : Holds R g std f w s b) (hq : b.quote = false) (dx dy : Int) :
    Does R g std f w fl (iGo (Vec.ofList [dx, dy])) s [{ b with dx := dx, dy := dy }] := by
  obtain ⟨s1, h1, H1⟩ := H.setDelta hs dx dy
  refine .one (s1 := s1) ?_ H1 (List.mem_singleton.mpr rfl)
  rw [iGo, bind_ok h1]; rfl

theorem ofList_one (x : Int) : Vec.ofList [x] = Vec.ofList [x, 0] := by
  show (⟨(Vec.stripRev [x]).reverse⟩ : Vec) = ⟨(Vec.stripRev [0, x]).reverse⟩
  simp [Vec.stripRev]

theorem does_if (hs : std = 93 ∨ std = 98) (H : Holds R g std f w s b) (hq : b.quote = false) {z o : Vec} (p q : Int × Int)
    (hz : z = Vec.ofList [p.1, p.2]) (ho : o = Vec.ofList [q.1, q.2]) :
    Does R g std f w fl (iIf z o) s [{ b.replace 1 [] with dx := if b.top = 0 then p.1 else q.1, dy := if b.top = 0 then p.2 else q.2 }] := by
  obtain ⟨s1, h1, H1⟩ := H.pop
  subst hz ho
  by_cases h0 : b.top = 0
  · obtain ⟨s2, h2, H2⟩ := H1.setDelta hs p.1 p.2
    refine .one (s1 := s2) (c := { b.replace 1 [] with dx := p.1, dy := p.2 }) ?_ H2 (List.mem_singleton.mpr (by rw [if_pos h0, if_pos h0]))
    rw [iIf, bind_ok h1, if_pos h0, bind_ok h2]; rfl
  · obtain ⟨s2, h2, H2⟩ := H1.setDelta hs q.1 q.2
    refine .one (s1 := s2) (c := { b.replace 1 [] with dx := q.1, dy := q.2 }) ?_ H2 (List.mem_singleton.mpr (by rw [if_neg h0, if_neg h0]))
    rw [iIf, bind_ok h1, if_neg h0, bind_ok h2]; rfl

theorem does_random (hs : std = 93 ∨ std = 98) (H : Holds R g std f w s b) (hq : b.quote = false) : Does R g std f w fl iGoAway s (b.perform R .random) := by
  have hr : ∃ r, 0 ≤ r ∧ r < 4 ∧ Funge.random 0 (toI64 (2 * ((2 : Nat) : Int) - 1)) s = .ok (r, s.setG { s.g with asked := s.g.asked + 1 }) := by
    refine ⟨0 + s.g.orc s.g.asked % (3 - 0 + 1), ?_, ?_, rfl⟩
    · have := Int.emod_nonneg (s.g.orc s.g.asked) (b := 4) (by decide); omega
    · have := Int.emod_lt_of_pos (s.g.orc s.g.asked) (b := 4) (by decide); omega
  obtain ⟨r, r0, r4, hr⟩ := hr
  have H1 := H.asked (s.g.asked + 1)
  have go : ∀ (v : Vec) (dx dy : Int), v = Vec.ofList [dx, dy] → (dx, dy) ∈ [(1, 0), (-1, 0), (0, 1), (0, (-1 : Int))] →
      (if r % 2 = 1 then setDelta (Vec.empty.set (r / 2).toNat (-1)) >>= fun _ => pure .none
        else setDelta (Vec.empty.set (r / 2).toNat 1) >>= fun _ => pure .none : Exec Err) = (setDelta v >>= fun _ => pure .none) →
      Does R g std f w fl iGoAway s (b.perform R .random) := by
    intro v dx dy hv hm he
    subst hv
    obtain ⟨s2, h2, H2⟩ := H1.setDelta hs dx dy
    refine .one (s1 := s2) ?_ H2 (List.mem_map.mpr ⟨_, hm, rfl⟩)
    rw [iGoAway, bind_ok (getDims_run s), H.dims, bind_ok hr]
    refine (congrFun he _).trans ?_
    rw [bind_ok h2]; rfl
  have : r = 0 ∨ r = 1 ∨ r = 2 ∨ r = 3 := by omega
  rcases this with rfl | rfl | rfl | rfl
  · exact go (Vec.empty.set 0 1) 1 0 (by decide) (by decide) rfl
  · exact go (Vec.empty.set 0 (-1)) (-1) 0 (by decide) (by decide) rfl
  · exact go (Vec.empty.set 1 1) 0 1 (by decide) (by decide) rfl
  · exact go (Vec.empty.set 1 (-1)) 0 (-1) (by decide) (by decide) rfl

theorem not_digit (c : Int) : (!Bef.digit c) = decide (c < 48 ∨ c > 57) := by
  unfold Bef.digit
  rw [Bool.eq_iff_iff]
  simp

theorem dropWhile_same (l : List Int) : l.dropWhile (!Bef.digit ·) = l.dropWhile (fun c => decide (c < 48 ∨ c > 57)) := by
  rw [show (fun c => !Bef.digit c) = fun c => decide (c < 48 ∨ c > 57) from funext not_digit]

theorem dropWhile_head {p : Int → Bool} {l : List Int} {c : Int} {t : List Int} (h : l.dropWhile p = c :: t) : p c = false := by
  induction l with
  | nil => cases h
  | cons x l ih =>
    rw [List.dropWhile_cons] at h
    split at h
    · exact ih h
    · rename_i hp
      cases h
      simpa using hp

theorem takeWhile_all {p : Int → Bool} {l : List Int} {c : Int} (h : c ∈ l.takeWhile p) : p c = true := by
  induction l with
  | nil => cases h
  | cons x l ih =>
    rw [List.takeWhile_cons] at h
    split at h
    · rename_i hp
      rcases List.mem_cons.mp h with rfl | h
      · exact hp
      · exact ih h
    · cases h

theorem dropWhile_none {p : Int → Bool} {l : List Int} (h : l.dropWhile p = []) : l.all p = true := by
  induction l with
  | nil => rfl
  | cons c t ih =>
    rw [List.dropWhile_cons] at h
    split at h
    · rename_i hp
      rw [List.all_cons, hp, ih h]; rfl
    · cases h

theorem does_numIn (H : Holds R g std f w s b) (hne : b.readNumber ≠ []) : Does R g std f w (b.fails R .numIn) iNumIn s b.readNumber := by
  unfold Bef.readNumber at hne ⊢
  dsimp only at hne ⊢
  have e : iNumIn s = (lift (numDigits 0 (s.g.inp.dropWhile fun c => decide (c < 48 ∨ c > 57))) >>= fun r => match r with
      | none => do
        modG fun g => { g with inp := [] }
        pure .unspec
      | some (n, rest) => do
        modG fun g => { g with inp := rest }
        pushTop n
        pure .none) s := rfl
  rw [H.inp, ← dropWhile_same] at e
  have hh : ∀ c u, b.inp.dropWhile (!Bef.digit ·) = c :: u → Bef.digit c = true := by
    intro c u h; simpa using dropWhile_head h
  have hfl : b.inp.dropWhile (!Bef.digit ·) = [] → b.fails R .numIn = true := fun h => dropWhile_none h
  generalize b.inp.dropWhile (!Bef.digit ·) = t at *
  have ht : t = t.takeWhile Bef.digit ++ t.dropWhile Bef.digit := (List.takeWhile_append_dropWhile).symm
  have hd : ∀ c ∈ t.takeWhile Bef.digit, 48 ≤ c ∧ c ≤ 57 := by
    intro c hc
    simpa [Bef.digit] using takeWhile_all hc
  by_cases h0 : t.takeWhile Bef.digit = []
  · rw [if_pos h0]
    have : t = [] := by
      cases t with
      | nil => rfl
      | cons c u => rw [List.takeWhile_cons, if_pos (hh c u rfl)] at h0; cases h0
    subst this
    exact ⟨.unspec, s.setG { s.g with inp := [] }, e, .inr ⟨.inl rfl, hfl rfl, _, List.mem_singleton.mpr rfl, H.input []⟩⟩
  · rw [if_neg h0] at hne ⊢
    split at hne
    · exact absurd rfl hne
    · rename_i h1
      rw [if_neg h1]
      cases hr : t.dropWhile Bef.digit with
      | nil => exact absurd (.inl hr) h1
      | cons d rest =>
        have hd' := dropWhile_head hr
        have hv : digitsValue (t.takeWhile Bef.digit) ≤ i64Max := Int.not_lt.mp fun h => h1 (.inr h)
        rw [hr] at ht
        have hn : numDigits 0 t = .ok (some (digitsValue (t.takeWhile Bef.digit), d :: rest)) := by
          conv => lhs; rw [ht]
          rw [numDigits_digits _ _ hd 0 (by omega) (by omega), Int.zero_mul, Int.zero_add, numDigits, if_neg]
          intro h
          simp [Bef.digit, h.1, h.2] at hd'
        obtain ⟨s2, h2, H2⟩ := (H.input (d :: rest)).push (digitsValue (t.takeWhile Bef.digit))
        refine .one (s1 := s2) ?_ H2 (List.mem_singleton.mpr rfl)
        rw [e, hn, bind_ok (show lift (.ok (some (digitsValue (t.takeWhile Bef.digit), d :: rest))) s = .ok (some (digitsValue (t.takeWhile Bef.digit), d :: rest), s) from rfl)]
        dsimp only
        rw [bind_ok (show modG (fun g => { g with inp := d :: rest }) s = .ok ((), s.setG { s.g with inp := d :: rest }) from rfl), bind_ok h2]; rfl

theorem does_charIn (H : Holds R g std f w s b) (hne : b.readChar ≠ []) : Does R g std f w (b.fails R .charIn) iCharIn s b.readChar := by
  have hi := H.inp
  unfold Bef.readChar at hne ⊢
  cases hb : b.inp with
  | nil =>
    rw [hb] at hi
    refine ⟨.unspec, s, ?_, .inr ⟨.inl rfl, by unfold Bef.fails; rw [hb]; rfl, b, List.mem_singleton.mpr rfl, H⟩⟩
    rw [iCharIn, bind_ok (getChar_nil hi)]; rfl
  | cons c t =>
    rw [hb] at hi hne
    dsimp only at hne ⊢
    split at hne
    · exact absurd rfl hne
    · rename_i hc
      rw [if_neg hc]
      obtain ⟨s2, h2, H2⟩ := (H.input t).push c
      refine .one (s1 := s2) ?_ H2 (List.mem_singleton.mpr rfl)
      rw [iCharIn, bind_ok (getChar_cons hi)]
      dsimp only
      rw [if_neg hc]
      refine (bind_ok h2).trans ?_
      rfl

/-! ### Blocks -/

theorem bind_same {m : Exec α} {k : α → Exec β} {s t : St} (h : m s = m t) : (m >>= k) s = (m >>= k) t := by
  cases ht : m t with
  | error e => rw [bind_error ht, bind_error (h.trans ht)]
  | ok r => obtain ⟨x, u⟩ := r; rw [bind_ok ht, bind_ok (h.trans ht)]

/-- An empty stack is as good as a zero. -/
theorem Holds.zero (H : Holds R g std f w s b) : ∃ s', Holds R g std f w s' { b with stack := b.top :: b.stack.drop 1 } ∧ popTop s' = popTop s ∧
    numStacks s = .ok (b.below.length + 1, s) ∧ numStacks s' = .ok (b.below.length + 1, s') := by
  obtain ⟨⟨F, a, n, bn, o, rfl, h1, hb, h2⟩, h3, h4, h5, h6, h7, h8⟩ := H
  have hn : ∀ b : Bef, numStacks (befAt g std f w a F n bn o b) = .ok ((bn.map fun p => (⟨0, p.1, p.2⟩ : Stack)).length + 1, befAt g std f w a F n bn o b) := by
    intro b; krfl
  have hl : (bn.map fun p => (⟨0, p.1, p.2⟩ : Stack)).length = b.below.length := by rw [← hb]; simp
  refine ⟨befAt g std f w a F n bn o { b with stack := b.top :: b.stack.drop 1 },
    ⟨⟨F, a, n, bn, o, rfl, plane_of h1 rfl rfl rfl rfl rfl, hb, h2⟩, h3, h4, h5, h6, h7, h8⟩, ?_, by rw [hn, hl], by rw [hn, hl]⟩
  obtain ⟨c, x1, x2, x3, x4, x, y, dx, dy, l, lb, ox, oy, inp, out, q, p, cm, ov, co⟩ := b
  cases l with
  | nil => krfl
  | cons v l => krfl

theorem switched_off {t : St} (h : t.g.cfg.mode = 0) (c : Int) : t.switched c = t := by
  unfold St.switched
  rw [h]
  rfl

theorem befAt_onTop {F : Field} {a n : Nat} {bn : List (List Int × Nat)} {o : List (List Int)} {v : Int} {l : List Int} (hst : b.stack = v :: l) :
    OnTop (befAt g std f w a F n bn o b) ⟨0, v :: l, n⟩ (v :: l) (bn.map fun p => ⟨0, p.1, p.2⟩) :=
  ⟨by krfl, by rw [← hst]; krfl, rfl, plain_zero _ _⟩

theorem coords2 (x y : Int) : coords 2 (Vec.ofList [x, y]) = [y, x] := by
  show [(Vec.ofList [x, y]).get 1, (Vec.ofList [x, y]).get 0] = _
  rw [get2_0, get2_1]

theorem vec_of_two {v : Vec} {l : List Int} (h : v.get = vecOf l 2) (hn : v.Normal ∧ (0 < 2 → 0 < v.size)) : v = Vec.ofList [(l.drop 1).headD 0, l.headD 0] := by
  have e := eq2 hn.1 (hn.2 (by decide)) (fun i hi => by rw [h, vecOf, if_neg (by omega)])
  rw [e, h]
  rcases l with _ | ⟨x, _ | ⟨y, l⟩⟩ <;> rfl

theorem does_opens_cons (H : Holds R g std f w s b) {v : Int} {l : List Int} (hst : b.stack = v :: l) (hv : -9223372036854775808 < v) (ex : Int → Exec Err) :
    ∃ s', runOp ex .beginBlock s = .ok (.none, s') ∧ Holds R g std f w s' b.begin := by
  obtain ⟨⟨F, a, n, bn, o, rfl, h1, hb, h2⟩, h3, h4, h5, h6, h7, h8⟩ := H
  have ht : b.top = v := by unfold Bef.top; rw [hst]; rfl
  have hd : b.stack.drop 1 = l := by rw [hst]; rfl
  have e1 : (befAt g std f w a F n bn o b).cur.ip = at2s b.x b.y b.dx b.dy b.ox b.oy := by krfl
  have e2 : (befAt g std f w a F n bn o b).g.cfg.dims = 2 := by krfl
  have e3 : (Vec.ofList [b.x, b.y]).add (Vec.ofList [b.dx, b.dy]) = Vec.ofList [b.x + b.dx, b.y + b.dy] := add2 _ _ _ _
  by_cases hp : 0 < v
  · obtain ⟨T, B, r, ⟨nt, hT⟩, ⟨nb, hB⟩⟩ := C25_begin ex _ _ _ v l (befAt_onTop (g := g) (std := std) (f := f) (w := w) (F := F) (a := a) (n := n) (bn := bn) (o := o) hst) hp
    rw [switched_off (by krfl), e1] at r
    rw [e1, e2] at hB
    simp only [at2s, coords2] at hB r
    rw [e3] at r
    subst hT hB
    refine ⟨_, r, ⟨F, a, nt, (b.oy :: b.ox :: l.drop v.toNat, nb) :: bn, o, ?_, plane_of h1 rfl rfl rfl rfl rfl, ?_, h2⟩, h3, h4, h5, h6, h7, h8⟩
    · have : b.begin = { b with stack := firstN v.toNat l, below := (b.oy :: b.ox :: l.drop v.toNat) :: b.below, ox := b.x + b.dx, oy := b.y + b.dy } := by
        unfold Bef.begin
        rw [ht, hd, show v.natAbs = v.toNat by omega]
        simp only [if_neg (show ¬ v < 0 by omega)]
        rfl
      rw [this]
      krfl
    · unfold Bef.begin
      rw [ht, hd, show v.natAbs = v.toNat by omega]
      simp only [if_neg (show ¬ v < 0 by omega), List.map_cons, hb]
  · obtain ⟨B, r, ⟨nb, hB⟩⟩ := C25_begin_nonpositive_partial ex _ _ _ v l (befAt_onTop (g := g) (std := std) (f := f) (w := w) (F := F) (a := a) (n := n) (bn := bn) (o := o) hst) (by omega) hv
    rw [switched_off (by krfl), e1] at r
    rw [e1, e2] at hB
    simp only [at2s, coords2] at hB r
    rw [e3] at r
    subst hB
    have hbeg : b.begin = { b with stack := [], below := (b.oy :: b.ox :: (List.replicate v.natAbs 0 ++ l)) :: b.below, ox := b.x + b.dx, oy := b.y + b.dy } := by
      unfold Bef.begin
      rw [ht, hd]
      by_cases h0 : v < 0
      · simp only [if_pos h0]
      · have : v = 0 := by omega
        subst this
        simp [Bef.first, firstN]
    rw [hbeg]
    refine ⟨_, r, ⟨F, a, 0, (b.oy :: b.ox :: (List.replicate v.natAbs 0 ++ l), nb) :: bn, o, by krfl, plane_of h1 rfl rfl rfl rfl rfl, ?_, h2⟩, h3, h4, h5, h6, h7, h8⟩
    rw [List.map_cons, hb]

theorem does_opens (H : Holds R g std f w s b) (hv : ¬ b.top ≤ -9223372036854775808) (ex : Int → Exec Err) : Does R g std f w fl (runOp ex .beginBlock) s [b.begin] := by
  obtain ⟨s0, H0, hp, -, -⟩ := H.zero
  obtain ⟨s1, h1, H1⟩ := does_opens_cons H0 rfl (by omega) ex
  refine .one (s1 := s1) ?_ H1 (List.mem_singleton.mpr rfl)
  rw [← h1]
  exact bind_same hp.symm

theorem does_closes_cons (H : Holds R g std f w s b) {v : Int} {l m : List Int} {ms : List (List Int)} (hst : b.stack = v :: l) (hbe : b.below = m :: ms)
    (hv : -9223372036854775808 < v) (ex : Int → Exec Err) : ∃ s', runOp ex .endBlock s = .ok (.none, s') ∧ Holds R g std f w s' b.finish := by
  obtain ⟨⟨F, a, n, bn, o, rfl, h1, hb, h2⟩, h3, h4, h5, h6, h7, h8⟩ := H
  have ht : b.top = v := by unfold Bef.top; rw [hst]; rfl
  have hd : b.stack.drop 1 = l := by rw [hst]; rfl
  rw [hbe] at hb
  obtain ⟨⟨m', k⟩, bn, rfl, rfl, hms⟩ : ∃ p t, bn = p :: t ∧ p.1 = m ∧ t.map (·.1) = ms := by
    cases bn with
    | nil => cases hb
    | cons p t => simp at hb; exact ⟨p, t, rfl, hb.1, hb.2⟩
  have e1 : ∀ bn, (befAt g std f w a F n bn o b).cur.ip = at2s b.x b.y b.dx b.dy b.ox b.oy := by intro bn; krfl
  have e2 : ∀ bn, (befAt g std f w a F n bn o b).g.cfg.dims = 2 := by intro bn; krfl
  have ho := befAt_onTop (g := g) (std := std) (f := f) (w := w) (F := F) (a := a) (n := n) (bn := (m', k) :: bn) (o := o) hst
  by_cases hp : 0 < v
  · obtain ⟨u, B, r, hu, hun, ⟨nb, hB⟩⟩ := end_run ex _ _ _ _ v l m' ho rfl (plain_zero _ _) hp
    rw [switched_off (by krfl), e1] at r
    rw [e2] at hB hu hun
    obtain rfl := vec_of_two hu hun
    subst hB
    have hf : b.finish = { b with stack := firstN v.toNat l ++ m'.drop 2, below := ms, ox := (m'.drop 1).headD 0, oy := m'.headD 0 } := by
      unfold Bef.finish
      rw [ht, hd, hbe, show v.natAbs = v.toNat by omega]
      simp only [if_neg (show ¬ v < 0 by omega)]
      rfl
    rw [hf]
    exact ⟨_, r, ⟨F, a, nb, bn, o, by krfl, plane_of h1 rfl rfl rfl rfl rfl, hms, h2⟩, h3, h4, h5, h6, h7, h8⟩
  · obtain ⟨u, B, r, hu, hun, ⟨nb, hB⟩⟩ := end_run_nonpositive ex _ _ _ _ v l m' ho rfl (plain_zero _ _) (by omega) hv
    rw [switched_off (by krfl), e1] at r
    rw [e2] at hB hu hun
    obtain rfl := vec_of_two hu hun
    subst hB
    have hf : b.finish = { b with stack := m'.drop (2 + v.natAbs), below := ms, ox := (m'.drop 1).headD 0, oy := m'.headD 0 } := by
      unfold Bef.finish
      rw [ht, hd, hbe]
      by_cases h0 : v < 0
      · simp only [if_pos h0]; rfl
      · have : v = 0 := by omega
        subst this
        simp [Bef.first, firstN]
    rw [hf]
    exact ⟨_, r, ⟨F, a, nb, bn, o, by krfl, plane_of h1 rfl rfl rfl rfl rfl, hms, h2⟩, h3, h4, h5, h6, h7, h8⟩

theorem does_under_cons (H : Holds R g std f w s b) {v : Int} {l m : List Int} {ms : List (List Int)} (hst : b.stack = v :: l) (hbe : b.below = m :: ms)
    (hv : -9223372036854775808 < v) (ex : Int → Exec Err) : ∃ s', runOp ex .under s = .ok (.none, s') ∧ Holds R g std f w s' b.transfer := by
  obtain ⟨⟨F, a, n, bn, o, rfl, h1, hb, h2⟩, h3, h4, h5, h6, h7, h8⟩ := H
  have ht : b.top = v := by unfold Bef.top; rw [hst]; rfl
  have hd : b.stack.drop 1 = l := by rw [hst]; rfl
  rw [hbe] at hb
  obtain ⟨⟨m', k⟩, bn, rfl, rfl, hms⟩ : ∃ p t, bn = p :: t ∧ p.1 = m ∧ t.map (·.1) = ms := by
    cases bn with
    | nil => cases hb
    | cons p t => simp at hb; exact ⟨p, t, rfl, hb.1, hb.2⟩
  have ho := befAt_onTop (g := g) (std := std) (f := f) (w := w) (F := F) (a := a) (n := n) (bn := (m', k) :: bn) (o := o) hst
  by_cases hp : 0 < v
  · obtain ⟨A, B, r, ⟨na, hA⟩, ⟨nb, hB⟩⟩ := C26_under ex _ _ _ _ v l m' ho rfl (plain_zero _ _) hp
    subst hA hB
    have hf : b.transfer = { b with stack := (firstN v.toNat m').reverse ++ l, below := m'.drop v.toNat :: ms } := by
      unfold Bef.transfer
      rw [ht, hd, hbe, show v.natAbs = v.toNat by omega]
      simp only [if_neg (show ¬ v < 0 by omega)]
      rfl
    rw [hf]
    exact ⟨_, r, ⟨F, a, na, (m'.drop v.toNat, nb) :: bn, o, by krfl, plane_of h1 rfl rfl rfl rfl rfl, by rw [List.map_cons, hms], h2⟩, h3, h4, h5, h6, h7, h8⟩
  · obtain ⟨A, B, r, ⟨na, hA⟩, ⟨nb, hB⟩⟩ := C26_under_negative_partial ex _ _ _ _ v l m' ho rfl (plain_zero _ _) (by omega) hv
    subst hA hB
    have hf : b.transfer = { b with stack := l.drop v.natAbs, below := ((firstN v.natAbs l).reverse ++ m') :: ms } := by
      unfold Bef.transfer
      rw [ht, hd, hbe]
      by_cases h0 : v < 0
      · simp only [if_pos h0]; rfl
      · have : v = 0 := by omega
        subst this
        simp [Bef.first, firstN]
    rw [hf]
    exact ⟨_, r, ⟨F, a, na, ((firstN v.natAbs l).reverse ++ m', nb) :: bn, o, by krfl, plane_of h1 rfl rfl rfl rfl rfl, by rw [List.map_cons, hms], h2⟩, h3, h4, h5, h6, h7, h8⟩

theorem length_below (H : Holds R g std f w s b) : s.cur.ss.stacks.length = b.below.length + 1 := by
  obtain ⟨⟨F, a, n, bn, o, rfl, h1, hb, h2⟩, -⟩ := H
  have : (befAt g std f w a F n bn o b).cur.ss.stacks = (⟨0, b.stack, n⟩ : Stack) :: bn.map fun p => ⟨0, p.1, p.2⟩ := by krfl
  rw [this, ← hb]
  simp

theorem mode_zero (H : Holds R g std f w s b) : s.g.cfg.mode = 0 := by
  obtain ⟨⟨F, a, n, bn, o, rfl, h1, hb, h2⟩, -⟩ := H
  krfl

theorem does_closes (H : Holds R g std f w s b) (hne : b.perform R .closes ≠ []) (ex : Int → Exec Err) : Does R g std f w (b.fails R .closes) (runOp ex .endBlock) s (b.perform R .closes) := by
  simp only [Bef.perform] at hne ⊢
  by_cases hb : b.below = []
  · rw [if_pos hb]
    refine ⟨.unspec, s, ?_, .inr ⟨.inl rfl, by unfold Bef.fails; rw [hb]; rfl, b, List.mem_singleton.mpr rfl, H⟩⟩
    rw [C25_end_alone ex s (by rw [length_below H, hb]; decide), switched_off (mode_zero H)]
  · rw [if_neg hb] at hne ⊢
    split at hne
    · exact absurd rfl hne
    · rename_i hv
      rw [if_neg hv]
      obtain ⟨s0, H0, hp, hn, hn0⟩ := H.zero
      obtain ⟨m, ms, hms⟩ := List.exists_cons_of_ne_nil hb
      obtain ⟨s1, h1, H1⟩ := does_closes_cons H0 rfl hms (by omega) ex
      refine .one (s1 := s1) ?_ H1 (List.mem_singleton.mpr rfl)
      rw [← h1]
      show iEnd s = iEnd s0
      have hl : b.below.length + 1 > 1 := by rw [hms]; simp
      rw [iEnd, bind_ok hn, bind_ok hn0, if_pos hl]
      exact bind_same hp.symm

theorem does_under (H : Holds R g std f w s b) (hne : b.perform R .under ≠ []) (ex : Int → Exec Err) : Does R g std f w (b.fails R .under) (runOp ex .under) s (b.perform R .under) := by
  simp only [Bef.perform] at hne ⊢
  by_cases hb : b.below = []
  · rw [if_pos hb]
    exact ⟨.unspec, s, C26_under_alone ex s (by rw [length_below H, hb]; decide), .inr ⟨.inl rfl, by unfold Bef.fails; rw [hb]; rfl, b, List.mem_singleton.mpr rfl, H⟩⟩
  · rw [if_neg hb] at hne ⊢
    split at hne
    · exact absurd rfl hne
    · rename_i hv
      rw [if_neg hv]
      obtain ⟨s0, H0, hp, hn, hn0⟩ := H.zero
      obtain ⟨m, ms, hms⟩ := List.exists_cons_of_ne_nil hb
      obtain ⟨s1, h1, H1⟩ := does_under_cons H0 rfl hms (by omega) ex
      refine .one (s1 := s1) ?_ H1 (List.mem_singleton.mpr rfl)
      rw [← h1]
      show iUnder s = iUnder s0
      have hl : b.below.length + 1 > 1 := by rw [hms]; simp
      rw [iUnder, bind_ok hn, bind_ok hn0, if_pos hl]
      exact bind_same hp.symm

theorem befAt_lifo (F : Field) (a n : Nat) (bn : List (List Int × Nat)) (o : List (List Int)) : (befAt g std f w a F n bn o b).Lifo :=
  ⟨Nat.zero_lt_succ _, by krfl, by krfl⟩

/-- The system information begins with the facts. -/
theorem facts_info (hg : Rules.Around R g) {F : Field} (hF : Shown R F b) (a n : Nat) {bn : List (List Int × Nat)} (hb : bn.map (·.1) = b.below) (o : List (List Int)) (time date : Int) {i : Nat} {v : Int}
    (h : (b.facts R)[i]? = some (some v)) (t : List Int) : (sysInfo (befAt g std f w a F n bn o b) b.stack.length time date ++ t).getD i 0 = v := by
  have e : ∃ k id more, sysInfo (befAt g std f w a F n bn o b) b.stack.length time date =
      [16 + (if R.many then 1 else 0) + (if R.run then 8 else 0) + (if R.files then 6 else 0), 8, 0x464e2b2b, 1, 1, 47, 2, id, 0, b.y, b.x, b.dy, b.dx, b.oy, b.ox,
        b.north, b.west, b.south - b.north, b.east - b.west, date, time, k] ++ ((b.stack :: b.below).map fun l => (l.length : Int)) ++ more ∧ k = b.below.length + 1 := by
    obtain ⟨-, -, g2, g3, g4⟩ := hg
    have c1 : (befAt g std f w a F n bn o b).g.cfg.concurrent = R.many ∧ (befAt g std f w a F n bn o b).g.cfg.execute = R.run ∧ (befAt g std f w a F n bn o b).g.cfg.filesystem = R.files ∧
        (befAt g std f w a F n bn o b).g.cfg.dims = 2 := by
      rw [← g2, ← g3, ← g4]; exact ⟨by krfl, by krfl, by krfl, by krfl⟩
    have c2 : (befAt g std f w a F n bn o b).cur.ip = at2s b.x b.y b.dx b.dy b.ox b.oy ∧ (befAt g std f w a F n bn o b).g.field = F := ⟨by krfl, by krfl⟩
    have c3 : (befAt g std f w a F n bn o b).cur.ss.stacks = (⟨0, b.stack, n⟩ : Stack) :: bn.map fun p => ⟨0, p.1, p.2⟩ := by krfl
    refine ⟨_, w.id, zeroTerminated g.cfg.args ++ [0, 0] ++ zeroTerminated g.cfg.env ++ [0, 0], ?_, rfl⟩
    unfold sysInfo
    rw [c1.1, c1.2.1, c1.2.2.1, c1.2.2.2, c2.1, c2.2, c3]
    simp only [at2s, coords2]
    simp only [List.range_succ, List.range_zero, List.nil_append, List.map_cons, List.map_nil, List.reverse_cons, List.reverse_nil, List.cons_append,
      List.tail_cons, List.length_cons, List.length_map, hF.w, hF.e, hF.n, hF.s, List.append_assoc, ← hb, List.map_map]
    rfl
  obtain ⟨k, id, more, e, rfl⟩ := e
  rw [e]
  unfold Bef.facts at h
  match i, h with
  | 0, h => rw [← Option.some.inj (Option.some.inj h)]; show (16 + _ + _ + _ : Int) = _; cases R.many <;> cases R.files <;> cases R.run <;> rfl
  | 1, h | 6, h | 8, h | 9, h | 10, h | 11, h | 12, h | 13, h | 14, h | 15, h | 16, h | 17, h | 18, h | 21, h => exact Option.some.inj (Option.some.inj h)
  | 2, h | 3, h | 4, h | 5, h | 7, h | 19, h | 20, h => injection h with h; cases h
  | i + 22, h =>
    have h : (((b.stack :: b.below).map fun l => some (l.length : Int))[i]?) = some (some v) := h
    show (((((b.stack :: b.below).map fun l => (l.length : Int)) ++ more) ++ t)[i]?).getD 0 = v
    rw [List.getElem?_map] at h
    cases hl : (b.stack :: b.below)[i]? with
    | none => rw [hl] at h; cases h
    | some l =>
      rw [hl] at h
      have hlt := (List.getElem?_eq_some_iff.mp hl).1
      rw [List.append_assoc, List.getElem?_append_left (by simpa using hlt), List.getElem?_map, hl]
      injection h with h; injection h

/-- `y` -/
theorem does_info (ht : R.torus = false) (hg : Rules.Around R g) (H : Holds R g std f w s b) (hne : b.perform R .info ≠ []) : Does R g std f w fl iSysInfo s (b.perform R .info) := by
  simp only [Bef.perform] at hne ⊢
  split at hne
  · exact absurd rfl hne
  rename_i hr
  rw [if_neg hr]
  split at hne
  · rename_i v hv
    obtain ⟨s1, h1, H1⟩ := H.pop
    have hi : toInt b.top = b.top := by unfold toInt; rw [Int.bmod_def]; split <;> omega
    obtain ⟨⟨F, a, n, bn, o, rfl, hp, hb, h2⟩, h3, h4, h5, h6, h7, h8⟩ := H1
    obtain ⟨n', hn⟩ := pushSysInfo_run (befAt_lifo F a n bn o) rfl b.top (b.replace 1 []).stack n
    have e1 : (befAt g std f w a F n bn o (b.replace 1 [])).setItems (b.replace 1 []).stack n = befAt g std f w a F n bn o (b.replace 1 []) := by krfl
    rw [e1, if_pos (by omega), facts_info hg (hp.shown ht) a n hb o _ _ hv] at hn
    refine .one (s1 := befAt g std f w (a + 2) F n' bn o (b.replace 1 [v])) (c := b.replace 1 [v]) ?_ ⟨⟨F, a + 2, n', bn, o, rfl, plane_of hp rfl rfl rfl rfl rfl, hb, h2⟩, h3, h4, h5, h6, h7, h8⟩ (List.mem_singleton.mpr rfl)
    rw [iSysInfo, bind_ok h1, hi, bind_ok hn]
    krfl
  · exact absurd rfl hne

/-- What the system does not allow. -/
theorem does_system (hg : Rules.Around R g) (H : Holds R g std f w s b) {k : Service} (hne : b.perform R (.system k) ≠ []) (ex : Int → Exec Err) :
    Does R g std f w (b.fails R (.system k)) (runOp ex (opOf (.system k))) s (b.perform R (.system k)) := by
  simp only [Bef.perform] at hne ⊢
  split at hne
  · exact absurd rfl hne
  · rename_i hk
    rw [if_neg hk]
    have hk : R.allows k = false := by simpa using hk
    obtain ⟨-, g1, g2, g3, -⟩ := hg
    have hc : s.g.cfg.fingerprint = g.cfg.fingerprint ∧ s.g.cfg.filesystem = g.cfg.filesystem ∧ s.g.cfg.execute = g.cfg.execute := by
      obtain ⟨⟨F, a, n, bn, o, rfl, -⟩, -⟩ := H
      exact ⟨by krfl, by krfl, by krfl⟩
    rw [g1, g2, g3] at hc
    refine ⟨.notavail, s, ?_, .inr ⟨.inr rfl, by show (!R.allows k) = true; rw [hk]; rfl, b, List.mem_singleton.mpr rfl, H⟩⟩
    have sw : ∀ c, switchPut c s = .ok ((), s) := fun c => by rw [switchPut, bind_ok (H.noMode _)]; rfl
    cases k with
    | load =>
      show iLoad s = _
      have h1 : s.g.cfg.fingerprint = false := hc.1.trans hk
      rw [iLoad, bind_ok (getCfg_run s), h1, if_neg (by decide)]
      exact (bind_ok rfl).trans ((bind_ok (sw _)).trans rfl)
    | unload =>
      show iUnload s = _
      have h1 : s.g.cfg.fingerprint = false := hc.1.trans hk
      rw [iUnload, bind_ok (getCfg_run s), h1, if_neg (by decide)]
      exact (bind_ok rfl).trans ((bind_ok (sw _)).trans rfl)
    | read =>
      show iFileIn s = _
      have h1 : s.g.cfg.filesystem = false := hc.2.1.trans hk
      rw [iFileIn, bind_ok (getCfg_run s), h1, if_neg (by decide)]; rfl
    | write =>
      show iFileOut s = _
      have h1 : s.g.cfg.filesystem = false := hc.2.1.trans hk
      rw [iFileOut, bind_ok (getCfg_run s), h1, if_neg (by decide)]; rfl
    | run =>
      show iExecute s = _
      have h1 : s.g.cfg.execute = false := hc.2.2.trans hk
      rw [iExecute, bind_ok (getCfg_run s), h1, if_neg (by decide)]; rfl

/-- Every word that is not handled on its own. -/
theorem perform_run (hR : Rules.For R std) (hg : Rules.Around R g) (H : Holds R g std f w s b) (hcd : R.torus = true → b.cardinal) (hq : b.quote = false) (ex : Int → Exec Err) {c : Int} {v : Word} (hw : word R c = some v)
    (h1 : v ≠ .blank) (h2 : v ≠ .comment) (h3 : v ≠ .stop) (h4 : v ≠ .quit) (h5 : v ≠ .split) (hne : b.perform R v ≠ []) : Does R g std f w (b.fails R v) (runOp ex (opOf v)) s (b.perform R v) := by
  have hs := hR.std
  cases v with
  | blank => exact absurd rfl h1
  | comment => exact absurd rfl h2
  | stop => exact absurd rfl h3
  | quit => exact absurd rfl h4
  | split => exact absurd rfl h5
  | iterate => exact absurd rfl hne
  | info => exact does_info (hR.flat hw (by decide)) hg H hne
  | system k => exact does_system hg H hne ex
  | opens =>
    simp only [Bef.perform] at hne ⊢
    split at hne
    · exact absurd rfl hne
    · rename_i hv
      rw [if_neg hv]; exact does_opens H hv ex
  | closes => exact does_closes H hne ex
  | under => exact does_under H hne ex
  | push n =>
    obtain ⟨s1, e1, H1⟩ := H.push n
    exact .one (s1 := s1) (show iPush n s = _ by rw [iPush, bind_ok e1]; rfl) H1 (List.mem_singleton.mpr rfl)
  | go dx dy =>
    have hgo : (dx, dy) = (1, 0) ∨ (dx, dy) = (-1, 0) ∨ (dx, dy) = (0, 1) ∨ (dx, dy) = (0, -1) := by
      have := mem_lookup hw
      have all : ∀ p ∈ words93 ++ words98, ∀ a b, p.2 = .go a b → (a, b) = (1, 0) ∨ (a, b) = (-1, 0) ∨ (a, b) = (0, 1) ∨ (a, b) = (0, -1) := by
        intro p hp a b he
        have all2 : ∀ p ∈ words93 ++ words98, p.2 ∈ [Word.go 1 0, .go (-1) 0, .go 0 1, .go 0 (-1)] ∨ (match p.2 with | .go _ _ => false | _ => true) = true := by decide
        rcases all2 p hp with h | h
        · rw [he] at h; simpa using h
        · rw [he] at h; cases h
      refine all (c, .go dx dy) ?_ dx dy rfl
      split at this
      · exact this
      · exact List.mem_append_left _ this
    rcases hgo with h | h | h | h <;> cases h
    · show Does R g std f w false (iGo (Vec.ofList [1])) s _
      rw [ofList_one]; exact does_go hs H hq 1 0
    · show Does R g std f w false (iGo (Vec.ofList [-1])) s _
      rw [ofList_one]; exact does_go hs H hq (-1) 0
    · exact does_go hs H hq 0 1
    · exact does_go hs H hq 0 (-1)
  | bridge =>
    simp only [Bef.perform] at hne ⊢
    split at hne
    · exact absurd rfl hne
    · rename_i hbr
      rw [if_neg hbr]
      obtain ⟨ip', e1, H1⟩ := H.hop hg hcd (by simpa using hbr)
      exact .one (s1 := s.setIP ip') (show iTrampoline s = _ by rw [iTrampoline, bind_ok (ipNext_run e1)]; rfl) H1 (List.mem_singleton.mpr rfl)
  | ifEW =>
    have := does_if (fl := false) hs H hq (1, 0) (-1, 0) (ofList_one 1) (ofList_one (-1))
    simpa [Bef.perform, Bef.fails, opOf, runOp] using this
  | ifNS =>
    have := does_if (fl := false) hs H hq (z := Vec.ofList [0, 1]) (o := Vec.ofList [0, -1]) (0, 1) (0, -1) rfl rfl
    simpa [Bef.perform, Bef.fails, opOf, runOp] using this
  | random => exact does_random hs H hq
  | not =>
    obtain ⟨s1, e1, H1⟩ := H.pop
    obtain ⟨s2, e2, H2⟩ := H1.push (if b.top = 0 then 1 else 0)
    rw [replace_replace] at H2
    exact .one (s1 := s2) (show iNot s = _ by rw [iNot, bind_ok e1, bind_ok e2]; rfl) H2 (List.mem_singleton.mpr rfl)
  | rem =>
    simp only [Bef.perform] at hne ⊢
    split at hne
    · exact absurd rfl hne
    · rename_i hr
      rw [if_neg hr]
      refine does_bin H hne fun hi => ?_
      unfold remOp
      by_cases h0 : b.top = 0
      · rw [if_pos h0, if_pos h0]
      · rw [if_neg h0, if_neg h0]
        exact if_neg hr
  | mul => exact does_bin H hne fun hi => if_pos hi
  | add => exact does_bin H hne fun hi => if_pos hi
  | sub => exact does_bin H hne fun hi => if_pos hi
  | div =>
    refine does_bin H hne fun hi => ?_
    unfold divOp
    by_cases h0 : b.top = 0
    · rw [if_pos h0, if_pos h0]
    · rw [if_neg h0] at hi
      rw [if_neg h0, if_neg h0]
      exact if_pos hi
  | gt => exact does_bin H hne fun hi => rfl
  | pop =>
    obtain ⟨s1, e1, H1⟩ := H.pop
    exact .one (s1 := s1) (show iPop s = _ by rw [iPop, bind_ok e1]; rfl) H1 (List.mem_singleton.mpr rfl)
  | dup =>
    obtain ⟨s1, e1, H1⟩ := H.pop
    obtain ⟨s2, e2, H2⟩ := H1.push b.top
    obtain ⟨s3, e3, H3⟩ := H2.push b.top
    rw [replace_replace, replace_two] at H3
    exact .one (s1 := s3) (show iDup s = _ by rw [iDup, bind_ok e1, bind_ok e2, bind_ok e3]; rfl) H3 (List.mem_singleton.mpr rfl)
  | swap =>
    obtain ⟨s1, e1, H1⟩ := H.pop
    obtain ⟨s2, e2, H2⟩ := H1.pop
    rw [top_replace] at e2
    obtain ⟨s3, e3, H3⟩ := H2.push b.top
    obtain ⟨s4, e4, H4⟩ := H3.push b.next
    rw [replace_replace, replace_replace, replace_two] at H4
    exact .one (s1 := s4) (show iSwap s = _ by rw [iSwap, bind_ok e1, bind_ok e2, bind_ok e3, bind_ok e4]; rfl) H4 (List.mem_singleton.mpr rfl)
  | numIn => exact does_numIn H hne
  | charIn => exact does_charIn H hne
  | quote =>
    simp only [Bef.perform] at hne ⊢
    split at hne
    · exact absurd rfl hne
    · rename_i hbr
      rw [if_neg hbr]
      obtain ⟨s1, e1, H1⟩ := H.quoted
      exact .one (s1 := s1) (show iString 34 s = _ by rw [iString, bind_ok e1]; rfl) H1 (List.mem_singleton.mpr rfl)
  | numOut =>
    simp only [Bef.perform] at hne ⊢
    split at hne
    · rename_i hr
      rw [if_pos hr]
      obtain ⟨s1, e1, H1⟩ := H.pop
      obtain ⟨s2, e2, H2⟩ := H1.emit (decimal (toInt b.top) ++ [32])
      refine .one (s1 := s2) (show iNumOut s = _ by rw [iNumOut, bind_ok e1, bind_ok e2]; rfl) H2 (List.mem_singleton.mpr ?_)
      have : toInt b.top = b.top := by unfold toInt; rw [Int.bmod_def]; split <;> omega
      rw [this, ← numeral_eq, List.append_assoc]; rfl
    · exact absurd rfl hne
  | charOut =>
    obtain ⟨s1, e1, H1⟩ := H.pop
    obtain ⟨s2, e2, H2⟩ := H1.emit [if b.top = 10 then 10 else toChar b.top]
    refine .one (s1 := s2) (show iCharOut s = _ by rw [iCharOut, bind_ok e1, bind_ok e2]; rfl) H2 (List.mem_singleton.mpr ?_)
    have : (if b.top = 10 then 10 else toChar b.top) = b.top.bmod 256 := by
      split
      · rename_i h; rw [h]; rfl
      · rfl
    rw [this]; rfl
  | get =>
    simp only [Bef.perform] at hne ⊢
    split at hne
    · exact absurd rfl hne
    rename_i hin
    rw [if_neg hin]
    obtain ⟨s1, e1, H1⟩ := H.popVector
    have e2 := H1.fieldGet (b.next + b.ox) (b.top + b.oy)
    obtain ⟨s3, e3, H3⟩ := H1.push (b.cell (b.next + b.ox) (b.top + b.oy))
    rw [replace_replace] at H3
    refine .one (s1 := s3) (show iGet s = _ by rw [iGet, bind_ok H.storage, bind_ok e1, add2, bind_ok e2]; exact (bind_ok e3).trans rfl) H3 (List.mem_singleton.mpr rfl)
  | put =>
    obtain ⟨s1, e1, H1⟩ := H.popVector
    obtain ⟨s2, e2, H2⟩ := H1.pop
    rw [replace_replace] at H2
    have ht : (b.replace 2 []).top = (b.stack.drop 2).headD 0 := rfl
    rw [ht] at e2
    obtain ⟨c, hc⟩ := List.exists_mem_of_ne_nil _ hne
    obtain ⟨s3, e3, H3⟩ := H2.fieldPut hc
    exact .one (s1 := s3) (show iPut s = _ by rw [iPut, bind_ok H.storage, bind_ok e1, bind_ok e2, add2, bind_ok e3]; rfl) H3 hc
  | noop => exact .one (s1 := s) rfl H (List.mem_singleton.mpr rfl)
  | left =>
    obtain ⟨s1, e1, H1⟩ := H.left
    have e2 : switchPut 93 s1 = .ok ((), s1) := by rw [switchPut, bind_ok (H1.noMode _)]; rfl
    exact .one (s1 := s1) (show iLeft s = _ by rw [iLeft, bind_ok e1, bind_ok e2]; rfl) H1 (List.mem_singleton.mpr rfl)
  | right =>
    obtain ⟨s1, e1, H1⟩ := H.right
    have e2 : switchPut 91 s1 = .ok ((), s1) := by rw [switchPut, bind_ok (H1.noMode _)]; rfl
    exact .one (s1 := s1) (show iRight s = _ by rw [iRight, bind_ok e1, bind_ok e2]; rfl) H1 (List.mem_singleton.mpr rfl)
  | compare =>
    obtain ⟨s1, e1, H1⟩ := H.pop
    obtain ⟨s2, e2, H2⟩ := H1.pop
    rw [top_replace] at e2
    rw [replace_replace] at H2
    by_cases c1 : b.next < b.top
    · obtain ⟨s3, e3, H3⟩ := H2.left
      refine .one (s1 := s3) (show iCompare s = _ by rw [iCompare, bind_ok e1, bind_ok e2, if_pos c1, bind_ok e3]; rfl) H3 (List.mem_singleton.mpr ?_)
      rw [if_pos c1]; rfl
    · by_cases c2 : b.next > b.top
      · obtain ⟨s3, e3, H3⟩ := H2.right
        refine .one (s1 := s3) (show iCompare s = _ by rw [iCompare, bind_ok e1, bind_ok e2, if_neg c1, if_pos c2, bind_ok e3]; rfl) H3 (List.mem_singleton.mpr ?_)
        rw [if_neg c1, if_pos c2]; rfl
      · refine .one (s1 := s2) (show iCompare s = _ by rw [iCompare, bind_ok e1, bind_ok e2, if_neg c1, if_neg c2]; rfl) H2 (List.mem_singleton.mpr ?_)
        rw [if_neg c1, if_neg c2]
  | reflect =>
    obtain ⟨s1, e1, H1⟩ := H.reflect
    exact .one (s1 := s1) (show iReflect s = _ by rw [iReflect, bind_ok e1]; rfl) H1 (List.mem_singleton.mpr rfl)
  | absolute =>
    obtain ⟨s1, e1, H1⟩ := H.popVector
    obtain ⟨s2, e2, H2⟩ := H1.setDelta hs b.next b.top
    exact .one (s1 := s2) (show iAbsolute s = _ by rw [iAbsolute, bind_ok e1, bind_ok e2]; rfl) H2 (List.mem_singleton.mpr rfl)
  | jump =>
    simp only [Bef.perform] at hne ⊢
    split at hne
    · rename_i hr
      rw [if_pos hr]
      obtain ⟨s1, e1, H1⟩ := H.pop
      have hi : toInt b.top = b.top := by unfold toInt; rw [Int.bmod_def]; split <;> omega
      by_cases hn : b.top < 0
      · obtain ⟨s2, e2, H2⟩ := H1.reflect
        obtain ⟨s3, e3, H3⟩ := Holds.ipNextN hg (hR.flat hw (by decide)) b.top.natAbs H2
        obtain ⟨s4, e4, H4⟩ := H3.reflect
        refine .one (s1 := s4) (show iJumpForward s = _ from ?_) H4 (List.mem_singleton.mpr (by rw [if_pos hn]))
        rw [iJumpForward, bind_ok e1]
        dsimp only
        rw [hi, if_neg (by omega), if_pos hn, if_pos hn, bind_ok e2, bind_ok e3, bind_ok e4]; rfl
      · obtain ⟨s3, e3, H3⟩ := Holds.ipNextN hg (hR.flat hw (by decide)) b.top.natAbs H1
        refine .one (s1 := s3) (show iJumpForward s = _ from ?_) H3 (List.mem_singleton.mpr (by rw [if_neg hn]))
        rw [iJumpForward, bind_ok e1]
        dsimp only
        rw [hi, if_neg (by omega), if_neg hn, if_neg hn]
        rw [bind_ok e3]; rfl
    · exact absurd rfl hne
  | clear =>
    obtain ⟨s1, e1, H1⟩ := H.clear
    exact .one (s1 := s1) (show iClear s = _ by rw [iClear, bind_ok e1]; rfl) H1 (List.mem_singleton.mpr rfl)
  | fetch =>
    simp only [Bef.perform] at hne ⊢
    split at hne
    · rename_i hr
      rw [if_pos hr]
      obtain ⟨s1, e1, H1⟩ := H.ipNext hg (hR.flat hw (by decide))
      have e2 := H1.ipGet
      obtain ⟨s3, e3, H3⟩ := H1.push (b.cell b.move.x b.move.y)
      have hi : toInt (b.cell b.move.x b.move.y) = b.cell b.move.x b.move.y := by unfold toInt; rw [Int.bmod_def]; split <;> omega
      refine .one (s1 := s3) (show iFetch s = _ from ?_) H3 (List.mem_singleton.mpr rfl)
      rw [iFetch, bind_ok e1, bind_ok e2]
      show (pushTop (toInt (b.cell b.move.x b.move.y)) >>= _) s1 = _
      rw [hi, bind_ok e3]; rfl
    · exact absurd rfl hne
  | store =>
    simp only [Bef.perform] at hne ⊢
    split at hne
    · rename_i hr
      rw [if_pos hr]
      obtain ⟨s1, e1, H1⟩ := H.ipNext hg (hR.flat hw (by decide))
      obtain ⟨s2, e2, H2⟩ := H1.pop
      obtain ⟨c, hc⟩ := List.exists_mem_of_ne_nil _ hne
      obtain ⟨s3, e3, H3⟩ := H2.fieldPut hc
      have hi : toChar (toInt b.top) = b.top := by unfold toInt toChar; rw [Int.bmod_def, Int.bmod_def]; split <;> split <;> omega
      refine .one (s1 := s3) (show iStore s = _ from ?_) H3 hc
      have ht : b.move.top = b.top := rfl
      rw [ht] at e2
      have e4 : ipPut b.top s2 = .ok ((), s3) := by
        have hp : s2.cur.ip.pos = Vec.ofList [b.move.x, b.move.y] := by
          obtain ⟨⟨F, a, n, bn, o, rfl, -⟩, -⟩ := H2
          krfl
        rw [← e3, ← hp]; rfl
      rw [iStore, bind_ok e1, bind_ok e2, hi, bind_ok e4]; rfl
    · exact absurd rfl hne

end
end Funge
