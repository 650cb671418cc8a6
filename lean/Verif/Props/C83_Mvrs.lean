import Verif.Model.Mvrs
import Verif.Props.C56_TOYS
import Verif.Props.C32_Permissions
/-!
# C83 to C85: MVRS, several universes
-/
namespace Funge
open Exec MExec

theorem mbind_ok {α β : Type} {m : MExec α} {f : α → MExec β} {w w' : Multi} {a : α} (h : m w = .ok (a, w')) : (m >>= f) w = f a w' := by
  show MExec.seq m f w = _
  rw [MExec.seq, h]

theorem mbind_error {α β : Type} {m : MExec α} {f : α → MExec β} {w : Multi} {e : Fault} (h : m w = .error e) : (m >>= f) w = .error e := by
  show MExec.seq m f w = _
  rw [MExec.seq, h]

theorem mpure_run {α : Type} (a : α) (w : Multi) : (pure a : MExec α) w = .ok (a, w) := rfl

theorem here_ok {α : Type} {m : Exec α} {s s' : St} {a : α} {o : List Uni} (h : m s = .ok (a, s')) : here m ⟨s, o⟩ = .ok (a, ⟨s', o⟩) := by
  unfold here; dsimp only; rw [h]

/-- Popping a vector of three coordinates, whatever the dimensions. -/
theorem popCoords3 {s : St} (h : s.Lifo) (v : Vec) (l n) :
    ∃ w : Vec, popVector3 (s.setItems (coords 3 v ++ l) n) = .ok (w, s.setItems l (n + 3)) ∧ SameVec 3 v w := by
  obtain ⟨w, h1, h2, -⟩ := popVectorLoop_run h 3 Vec.empty (coords 3 v ++ l) n
  refine ⟨w, ?_, sameVec_popped (l := l) ?_⟩
  · rw [popVector3, h1]
    have : (coords 3 v ++ l).drop 3 = l := by
      rw [List.drop_append_of_le_length (by rw [coords_length]; exact Nat.le_refl _), List.drop_eq_nil_of_le (by rw [coords_length]; exact Nat.le_refl _)]
      rfl
    rw [this]
  · funext i
    rw [h2 i, vecOf]
    by_cases hi : i < 3
    · rw [if_pos hi, if_pos hi]
    · rw [if_neg hi, if_neg hi]; simp [Vec.get, Vec.empty]

/-! ### C83: copying between universes -/

/-- `o` is an offset into an area of that size: on every axis from 0 up to but not including the size (or down to it). -/
def InSize (size o : Vec) : Prop := ∀ i, (0 ≤ o.get i ∧ o.get i < size.get i) ∨ (size.get i < o.get i ∧ o.get i ≤ 0) ∨ (size.get i = 0 ∧ o.get i = 0)

/-- The same, the size included. -/
def UpToSize (size o : Vec) : Prop := ∀ i, (0 ≤ o.get i ∧ o.get i ≤ size.get i) ∨ (size.get i ≤ o.get i ∧ o.get i ≤ 0)

/-- What a cell of field `f` becomes when `x` is stored in it. -/
def kept (f : Field) (x : Int) : Int := if f.charCells then toChar x else x

/-- The cells of `f'` at `dst` plus an offset of `area` are those of `from'` at `src` plus the offset, and all others are those of `f`. -/
def CopiedFrom (area : Vec → Prop) (from' : Field) (src : Vec) (f f' : Field) (dst : Vec) : Prop :=
  (∀ o, area o → f'.get (dst.add o) = kept f (from'.get (src.add o))) ∧
  (∀ q, (∀ o, area o → (dst.add o).eqv q = false) → f'.get q = f.get q)

theorem mvCopy_spec (src dst : Vec) (from' : Field) (l : List Vec) (f : Field) (hu : Field.UniqueKeys f.cells) (hd : l.Pairwise fun u v => u.eqv v = false) :
    Field.UniqueKeys (mvCopy src dst from' l f).cells ∧ (mvCopy src dst from' l f).charCells = f.charCells ∧
    (∀ v ∈ l, (mvCopy src dst from' l f).get (dst.add v) = f.cellOf (from'.get (src.add v))) ∧
    (∀ q, (∀ v ∈ l, (dst.add v).eqv q = false) → (mvCopy src dst from' l f).get q = f.get q) := by
  induction l generalizing f with
  | nil => exact ⟨hu, rfl, by simp, fun q _ => rfl⟩
  | cons v t ih =>
    rw [List.pairwise_cons] at hd
    obtain ⟨h1, h2, h3, h4⟩ := ih (f.put (dst.add v) (from'.get (src.add v))) (Field.unique_put hu _ _) hd.2
    have hc : ∀ x, (f.put (dst.add v) (from'.get (src.add v))).cellOf x = f.cellOf x := by
      intro x; unfold Field.cellOf; rw [Field.put_charCells]
    refine ⟨h1, by rw [mvCopy, h2, Field.put_charCells], ?_, ?_⟩
    · intro u hu'
      rw [mvCopy]
      rcases List.mem_cons.mp hu' with rfl | hu'
      · rw [h4 _ (fun w hw => by rw [add_congr, Vec.eqv_comm]; exact hd.1 w hw), Field.get_put hu, if_pos (Vec.eqv_refl _)]
      · rw [h3 u hu', hc]
    · intro q hq
      rw [mvCopy, h4 q (fun w hw => hq w (List.mem_cons_of_mem _ hw)), Field.get_put hu, if_neg (by rw [hq v List.mem_cons_self]; decide)]

theorem cellOf_kept (f : Field) (x : Int) : f.cellOf x = kept f x := rfl

theorem copied_of {size src dst w1 w2 : Vec} {l : List Vec} {from' f : Field} (hu : Field.UniqueKeys f.cells)
    (hd : l.Pairwise fun u v => u.eqv v = false) (hl : ∀ v, UpToSize size v ↔ ∃ u ∈ l, u.eqv v = true)
    (h1 : ∀ i, w1.get i = src.get i) (h2 : ∀ i, w2.get i = dst.get i) :
    CopiedFrom (UpToSize size) from' src f (mvCopy w1 w2 from' l f) dst := by
  obtain ⟨-, -, h3, h4⟩ := mvCopy_spec w1 w2 from' l f hu hd
  constructor
  · intro o ho
    obtain ⟨v, hv, he⟩ := (hl o).mp ho
    have e1 : (w2.add v).eqv (dst.add o) = true := by
      rw [Vec.eqv_iff]; intro i; rw [Vec.get_add, Vec.get_add, h2, (Vec.eqv_iff _ _).mp he i]
    have e2 : (w1.add v).eqv (src.add o) = true := by
      rw [Vec.eqv_iff]; intro i; rw [Vec.get_add, Vec.get_add, h1, (Vec.eqv_iff _ _).mp he i]
    rw [← Field.get_congr _ e1, h3 v hv, ← Field.get_congr _ e2, cellOf_kept]
  · intro q hq
    apply h4 q
    intro v hv
    have := hq v ((hl v).mpr ⟨v, hv, Vec.eqv_refl _⟩)
    rcases hb : (w2.add v).eqv q with _ | _
    · rfl
    · exfalso
      have : (dst.add v).eqv q = true := by
        rw [Vec.eqv_iff] at hb ⊢; intro i; rw [← hb i, Vec.get_add, Vec.get_add, h2]
      simp_all

/-- Going through an area ends, after a number of steps that depends on its size alone. -/
theorem range_upTo (size : Vec) : ∃ N : Nat, ∀ s : St, N ≤ s.g.fuel → ∀ w : Vec, w.Normal → 0 < w.size → (∀ i, w.get i = size.get i) →
    ∃ l : List Vec, (∀ s' : St, s'.g.fuel = s.g.fuel → rangeOf (Vec.ofList [0]) w s' = .ok (l, s')) ∧ l.Pairwise (fun u v => u.eqv v = false) ∧
      ∀ v, UpToSize size v ↔ ∃ u ∈ l, u.eqv v = true := by
  obtain ⟨l, N, h1, h2, h3⟩ := VecRange.C07_range_enumerates_box (Vec.ofList [0]) (size.set 0 (size.get 0))
  have hg : ∀ i, (size.set 0 (size.get 0)).get i = size.get i := by
    intro i; rw [Vec.get_set]; split <;> simp_all
  refine ⟨N, fun s hs w hw h0 he => ⟨l, ?_, h2, ?_⟩⟩
  · obtain rfl : w = size.set 0 (size.get 0) := Vec.Normal.ext hw (Vec.normal_set _ _ _) h0 (Vec.size_set_pos _ _ _) fun i => by rw [he, hg]
    intro s' hs'
    rw [rangeOf, bind_ok (show getFuel s' = .ok (s'.g.fuel, s') from rfl), h1 _ (by omega)]; rfl
  · intro v
    rw [← h3 v]
    unfold UpToSize VecRange.InBox
    refine forall_congr' fun i => ?_
    rw [get_zero, hg]

/-- Popping a vector gives its one normal form. -/
theorem popCoordsNF {s : St} (h : s.Lifo) {v : Vec} (hv : v.InDim s.g.cfg.dims) (hd : 0 < s.g.cfg.dims) (l n) :
    ∃ w : Vec, popVector (s.setItems (coords s.g.cfg.dims v ++ l) n) = .ok (w, s.setItems l (n + s.g.cfg.dims)) ∧ (∀ i, w.get i = v.get i) ∧ 0 < w.size ∧ w.Normal := by
  obtain ⟨w, h1, h2, h3, h4⟩ := popVector_run h (coords s.g.cfg.dims v ++ l) n
  obtain ⟨w', h1', h2'⟩ := popCoords h v l n
  rw [h1'] at h1
  obtain rfl : w' = w := by injection h1 with h; exact (Prod.mk.inj h).1
  exact ⟨w', h1', sameVec_eqv hv h2', h3 hd, h4⟩

/-- What is on the stack for `F`: size, source (three coordinates) and destination vector, and the name of the universe. -/
def fromArgs (d : Nat) (size src dst : Vec) (name l : List Int) : List Int := coords d size ++ (coords 3 src ++ (coords d dst ++ (name ++ 0 :: l)))

/-- What is on the stack for `P`: size, source and destination (three coordinates) vector, and the name of the universe. -/
def putArgs (d : Nat) (size src dst : Vec) (name l : List Int) : List Int := coords d size ++ (coords d src ++ (coords 3 dst ++ (name ++ 0 :: l)))

/-- **C83** (partial: the area copied is one cell too large along every axis, see `C83_false_size`) `F` copies an area of another universe to this one, and changes
nothing else anywhere. -/
theorem C83_from_partial (size : Vec) : ∃ N, ∀ {s : St} {o : List Uni} {src dst : Vec} {name l : List Int} {u : Uni}, N ≤ s.g.fuel → s.Lifo → 0 < s.g.cfg.dims →
    size.InDim s.g.cfg.dims → src.InDim 3 → dst.InDim s.g.cfg.dims → IsStr name → s.items = fromArgs s.g.cfg.dims size src dst name l → s.g.cfg.name ≠ name →
    Multi.find ⟨s, o⟩ name = some u → Field.UniqueKeys s.g.field.cells → ∃ s' f', mvrs 70 ⟨s, o⟩ = .ok (.none, ⟨s', o⟩) ∧ s.Puts s' l f' ∧ CopiedFrom (UpToSize size) u.field src s.g.field f' dst := by
  obtain ⟨N, hR⟩ := range_upTo size
  refine ⟨N, fun {s o src dst name l u} hN h h0 hs hr hd hn hi hme hu hk => ?_⟩
  obtain ⟨w1, p1, e1, z1, n1⟩ := popCoordsNF h hs h0 (coords 3 src ++ (coords s.g.cfg.dims dst ++ (name ++ 0 :: l))) s.top.ops
  obtain ⟨w2, p2, e2⟩ := popCoords3 h src (coords s.g.cfg.dims dst ++ (name ++ 0 :: l)) (s.top.ops + s.g.cfg.dims)
  obtain ⟨w3, p3, e3⟩ := popCoords h dst (name ++ 0 :: l) (s.top.ops + s.g.cfg.dims + 3)
  obtain ⟨n4, p4⟩ := popStr h hn l (s.top.ops + s.g.cfg.dims + 3 + s.g.cfg.dims)
  obtain ⟨lst, hR, hP, hM⟩ := hR s hN w1 n1 z1 e1
  refine ⟨(s.setG { s.g with field := mvCopy w2 w3 u.field lst s.g.field }).setItems l n4, mvCopy w2 w3 u.field lst s.g.field, ?_, ⟨n4, rfl⟩,
    copied_of hk hP hM (sameVec_eqv hr e2) (sameVec_eqv hd e3)⟩
  have hfind : Multi.find ⟨s.setItems l n4, o⟩ name = some u := hu
  have hname : (Multi.name ⟨s.setItems l n4, o⟩ == name) = false := by
    show (s.g.cfg.name == name) = false
    simpa using hme
  show mvrsFrom ⟨s, o⟩ = _
  conv => lhs; rw [← setItems_self h, hi, fromArgs]
  rw [mvrsFrom, mbind_ok (here_ok p1), mbind_ok (here_ok p2), mbind_ok (here_ok p3), mbind_ok (here_ok p4), mvFind, hname]
  simp only [Bool.false_eq_true, if_false, hfind]
  rw [mvRange, mbind_ok (here_ok (hR (s.setItems l n4) rfl))]
  rfl

/-- **C83** (partial: the area copied is one cell too large along every axis, see `C83_false_size`) `P` copies an area of this universe to another one, and changes
nothing else anywhere. -/
theorem C83_put_partial (size : Vec) : ∃ N, ∀ {s : St} {o : List Uni} {src dst : Vec} {name l : List Int} {u : Uni}, N ≤ s.g.fuel → s.Lifo → 0 < s.g.cfg.dims →
    size.InDim s.g.cfg.dims → src.InDim s.g.cfg.dims → dst.InDim 3 → IsStr name → s.items = putArgs s.g.cfg.dims size src dst name l → s.g.cfg.name ≠ name →
    Multi.find ⟨s, o⟩ name = some u → Field.UniqueKeys u.field.cells → ∃ s' o' f', mvrs 80 ⟨s, o⟩ = .ok (.none, ⟨s', o'⟩) ∧ s.Leaves s' l ∧
      Multi.find ⟨s', o'⟩ name = some { u with field := f' } ∧ CopiedFrom (UpToSize size) s.g.field src u.field f' dst ∧
      (∀ n, n ≠ name → Multi.find ⟨s', o'⟩ n = Multi.find ⟨s, o⟩ n) ∧ o'.map (·.cfg.name) = o.map (·.cfg.name) := by
  obtain ⟨N, hR⟩ := range_upTo size
  refine ⟨N, fun {s o src dst name l u} hN h h0 hs hr hd hn hi hme hu hk => ?_⟩
  obtain ⟨w1, p1, e1, z1, n1⟩ := popCoordsNF h hs h0 (coords s.g.cfg.dims src ++ (coords 3 dst ++ (name ++ 0 :: l))) s.top.ops
  obtain ⟨w2, p2, e2⟩ := popCoords h src (coords 3 dst ++ (name ++ 0 :: l)) (s.top.ops + s.g.cfg.dims)
  obtain ⟨w3, p3, e3⟩ := popCoords3 h dst (name ++ 0 :: l) (s.top.ops + s.g.cfg.dims + s.g.cfg.dims)
  obtain ⟨n4, p4⟩ := popStr h hn l (s.top.ops + s.g.cfg.dims + s.g.cfg.dims + 3)
  obtain ⟨lst, hR, hP, hM⟩ := hR s hN w1 n1 z1 e1
  have hfind : Multi.find ⟨s.setItems l n4, o⟩ name = some u := hu
  have hname : (Multi.name ⟨s.setItems l n4, o⟩ == name) = false := by
    show (s.g.cfg.name == name) = false
    simpa using hme
  refine ⟨s.setItems l n4, o.map fun u => if u.cfg.name == name then { u with field := mvCopy w2 w3 s.g.field lst u.field } else u,
    mvCopy w2 w3 s.g.field lst u.field, ?_, ⟨n4, rfl⟩, ?_, copied_of hk hP hM (sameVec_eqv hr e2) (sameVec_eqv hd e3), ?_, ?_⟩
  · show mvrsPut ⟨s, o⟩ = _
    conv => lhs; rw [← setItems_self h, hi, putArgs]
    rw [mvrsPut, mbind_ok (here_ok p1), mbind_ok (here_ok p2), mbind_ok (here_ok p3), mbind_ok (here_ok p4), mvFind, hname]
    simp only [Bool.false_eq_true, if_false, hfind]
    exact (mbind_ok (here_ok (hR (s.setItems l n4) rfl))).trans rfl
  · clear hR hP hM hfind hname p1 p2 p3 p4
    unfold Multi.find at hu ⊢
    dsimp only at hu ⊢
    clear hi
    induction o with
    | nil => cases hu
    | cons a t ih =>
      rw [List.find?_cons] at hu
      rw [List.map_cons, List.find?_cons]
      by_cases ha : (a.cfg.name == name) = true
      · rw [ha] at hu; cases hu
        simp only [ha, if_true]
      · have ha' : (a.cfg.name == name) = false := by simpa using ha
        rw [ha'] at hu
        simp only [ha', Bool.false_eq_true, if_false]
        exact ih hu
  · intro n hnn
    unfold Multi.find
    dsimp only
    clear hi hu hfind hname
    induction o with
    | nil => rfl
    | cons a t ih =>
      rw [List.map_cons, List.find?_cons, List.find?_cons, ih]
      by_cases ha : (a.cfg.name == name) = true
      · simp only [ha, if_true]
        have : (a.cfg.name == n) = false := by
          have e : a.cfg.name = name := by simpa using ha
          rw [e]; simpa using fun h => hnn h.symm
        rw [this]
      · have ha' : (a.cfg.name == name) = false := by simpa using ha
        simp only [ha', Bool.false_eq_true, if_false]
  · rw [List.map_map]
    apply List.map_congr_left
    intro a _
    show (if _ then _ else _ : Uni).cfg.name = _
    split <;> rfl

/-- **C83** An unknown name makes `F` and `P` reflect; only their arguments are gone. -/
theorem C83_unknown {s : St} {o : List Uni} (h : s.Lifo) {c : Int} {size src dst : Vec} {name l : List Int} (hn : IsStr name)
    (hi : (c = 70 ∧ s.items = fromArgs s.g.cfg.dims size src dst name l) ∨ (c = 80 ∧ s.items = putArgs s.g.cfg.dims size src dst name l)) (hme : s.g.cfg.name ≠ name)
    (hu : Multi.find ⟨s, o⟩ name = none) : ∃ s', mvrs c ⟨s, o⟩ = .ok (.unspec, ⟨s', o⟩) ∧ s.Leaves s' l := by
  have hname : ∀ n, (Multi.name ⟨s.setItems l n, o⟩ == name) = false := by
    intro n
    show (s.g.cfg.name == name) = false
    simpa using hme
  have hfind : ∀ n, Multi.find ⟨s.setItems l n, o⟩ name = none := fun _ => hu
  rcases hi with ⟨rfl, hi⟩ | ⟨rfl, hi⟩
  · obtain ⟨w1, p1, e1⟩ := popCoords h size (coords 3 src ++ (coords s.g.cfg.dims dst ++ (name ++ 0 :: l))) s.top.ops
    obtain ⟨w2, p2, e2⟩ := popCoords3 h src (coords s.g.cfg.dims dst ++ (name ++ 0 :: l)) (s.top.ops + s.g.cfg.dims)
    obtain ⟨w3, p3, e3⟩ := popCoords h dst (name ++ 0 :: l) (s.top.ops + s.g.cfg.dims + 3)
    obtain ⟨n4, p4⟩ := popStr h hn l (s.top.ops + s.g.cfg.dims + 3 + s.g.cfg.dims)
    refine ⟨s.setItems l n4, ?_, n4, rfl⟩
    show mvrsFrom ⟨s, o⟩ = _
    conv => lhs; rw [← setItems_self h, hi, fromArgs]
    rw [mvrsFrom, mbind_ok (here_ok p1), mbind_ok (here_ok p2), mbind_ok (here_ok p3), mbind_ok (here_ok p4), mvFind, hname]
    simp only [Bool.false_eq_true, if_false, hfind]
  · obtain ⟨w1, p1, e1⟩ := popCoords h size (coords s.g.cfg.dims src ++ (coords 3 dst ++ (name ++ 0 :: l))) s.top.ops
    obtain ⟨w2, p2, e2⟩ := popCoords h src (coords 3 dst ++ (name ++ 0 :: l)) (s.top.ops + s.g.cfg.dims)
    obtain ⟨w3, p3, e3⟩ := popCoords3 h dst (name ++ 0 :: l) (s.top.ops + s.g.cfg.dims + s.g.cfg.dims)
    obtain ⟨n4, p4⟩ := popStr h hn l (s.top.ops + s.g.cfg.dims + s.g.cfg.dims + 3)
    refine ⟨s.setItems l n4, ?_, n4, rfl⟩
    show mvrsPut ⟨s, o⟩ = _
    conv => lhs; rw [← setItems_self h, hi, putArgs]
    rw [mvrsPut, mbind_ok (here_ok p1), mbind_ok (here_ok p2), mbind_ok (here_ok p3), mbind_ok (here_ok p4), mvFind, hname]
    simp only [Bool.false_eq_true, if_false, hfind]

/-- When more than the area was copied, the cell at its far corner shows it. -/
theorem not_copied_inSize {size src dst : Vec} {g f f' : Field} (hs : size.get 0 ≠ 0) (hc : CopiedFrom (UpToSize size) g src f f' dst)
    (hx : kept f (g.get (src.add size)) ≠ f.get (dst.add size)) : ¬ CopiedFrom (InSize size) g src f f' dst := by
  intro h
  have h1 : f'.get (dst.add size) = kept f (g.get (src.add size)) := hc.1 size fun i => by omega
  have h2 : f'.get (dst.add size) = f.get (dst.add size) := by
    apply h.2
    intro o ho
    rcases hb : (dst.add o).eqv (dst.add size) with _ | _
    · rfl
    · exfalso
      have := (Vec.eqv_iff _ _).mp hb 0
      rw [Vec.get_add, Vec.get_add] at this
      have := ho 0
      omega
  rw [h1] at h2
  exact hx h2

/-- **C83** is violated: `F` with whatever size does not copy an area of that size. The cell at its far corner, which lies outside, is overwritten too, unless it
happens to hold the same already. -/
theorem C83_false_size (size : Vec) (h1 : size.get 0 ≠ 0) : ∃ N, ∀ {s : St} {o : List Uni} {src dst : Vec} {name l : List Int} {u : Uni}, N ≤ s.g.fuel → s.Lifo →
    0 < s.g.cfg.dims → size.InDim s.g.cfg.dims → src.InDim 3 → dst.InDim s.g.cfg.dims → IsStr name → s.items = fromArgs s.g.cfg.dims size src dst name l →
    s.g.cfg.name ≠ name → Multi.find ⟨s, o⟩ name = some u → Field.UniqueKeys s.g.field.cells →
    kept s.g.field (u.field.get (src.add size)) ≠ s.g.field.get (dst.add size) →
    ∃ s' f', mvrs 70 ⟨s, o⟩ = .ok (.none, ⟨s', o⟩) ∧ s.Puts s' l f' ∧ ¬ CopiedFrom (InSize size) u.field src s.g.field f' dst := by
  obtain ⟨N, hN⟩ := C83_from_partial size
  refine ⟨N, fun {s o src dst name l u} a1 a2 a3 a4 a5 a6 a7 a8 a9 a10 a11 hx => ?_⟩
  obtain ⟨s', f', r1, r2, r3⟩ := hN a1 a2 a3 a4 a5 a6 a7 a8 a9 a10 a11
  exact ⟨s', f', r1, r2, not_copied_inSize h1 r3 hx⟩

/-- Copying within one field is copying from what it was before when no cell is written to that is still to be read. -/
theorem mvCopyHere_eq (src dst : Vec) (f0 : Field) (l : List Vec) (f : Field) (hu : Field.UniqueKeys f.cells) (hf : ∀ v ∈ l, f.get (src.add v) = f0.get (src.add v))
    (hd : ∀ u ∈ l, ∀ v ∈ l, (dst.add u).eqv (src.add v) = false) : mvCopyHere src dst l f = mvCopy src dst f0 l f := by
  induction l generalizing f with
  | nil => rfl
  | cons v t ih =>
    rw [mvCopyHere, mvCopy, hf v List.mem_cons_self]
    apply ih _ (Field.unique_put hu _ _)
    · intro u hu'
      rw [Field.get_put hu, if_neg (by rw [hd v List.mem_cons_self u (List.mem_cons_of_mem _ hu')]; decide)]
      exact hf u (List.mem_cons_of_mem _ hu')
    · exact fun u hu' v hv' => hd u (List.mem_cons_of_mem _ hu') v (List.mem_cons_of_mem _ hv')

/-- **C83** (partial: as for `C83_from_partial`, and the areas do not overlap) `F` within the present universe copies an area of it. -/
theorem C83_same_partial (size : Vec) : ∃ N, ∀ {s : St} {o : List Uni} {src dst : Vec} {name l : List Int}, N ≤ s.g.fuel → s.Lifo → 0 < s.g.cfg.dims →
    size.InDim s.g.cfg.dims → src.InDim 3 → dst.InDim s.g.cfg.dims → IsStr name → s.items = fromArgs s.g.cfg.dims size src dst name l → s.g.cfg.name = name →
    Field.UniqueKeys s.g.field.cells → (∀ u v, UpToSize size u → UpToSize size v → (dst.add u).eqv (src.add v) = false) →
    ∃ s' f', mvrs 70 ⟨s, o⟩ = .ok (.none, ⟨s', o⟩) ∧ s.Puts s' l f' ∧ CopiedFrom (UpToSize size) s.g.field src s.g.field f' dst := by
  obtain ⟨N, hR⟩ := range_upTo size
  refine ⟨N, fun {s o src dst name l} hN h h0 hs hr hd hn hi hme hk hsep => ?_⟩
  obtain ⟨w1, p1, e1, z1, n1⟩ := popCoordsNF h hs h0 (coords 3 src ++ (coords s.g.cfg.dims dst ++ (name ++ 0 :: l))) s.top.ops
  obtain ⟨w2, p2, e2⟩ := popCoords3 h src (coords s.g.cfg.dims dst ++ (name ++ 0 :: l)) (s.top.ops + s.g.cfg.dims)
  obtain ⟨w3, p3, e3⟩ := popCoords h dst (name ++ 0 :: l) (s.top.ops + s.g.cfg.dims + 3)
  obtain ⟨n4, p4⟩ := popStr h hn l (s.top.ops + s.g.cfg.dims + 3 + s.g.cfg.dims)
  obtain ⟨lst, hR, hP, hM⟩ := hR s hN w1 n1 z1 e1
  have hsame : mvCopyHere w2 w3 lst s.g.field = mvCopy w2 w3 s.g.field lst s.g.field := by
    apply mvCopyHere_eq _ _ _ _ _ hk fun _ _ => rfl
    intro a ha b hb
    have hab := hsep a b ((hM a).mpr ⟨a, ha, Vec.eqv_refl _⟩) ((hM b).mpr ⟨b, hb, Vec.eqv_refl _⟩)
    rcases hc : (w3.add a).eqv (w2.add b) with _ | _
    · rfl
    · exfalso
      have : (dst.add a).eqv (src.add b) = true := by
        rw [Vec.eqv_iff] at hc ⊢
        intro i
        have := hc i
        rw [Vec.get_add, Vec.get_add, sameVec_eqv hr e2, sameVec_eqv hd e3] at this
        rw [Vec.get_add, Vec.get_add, this]
      simp_all
  refine ⟨(s.setG { s.g with field := mvCopyHere w2 w3 lst s.g.field }).setItems l n4, mvCopyHere w2 w3 lst s.g.field, ?_, ⟨n4, rfl⟩, ?_⟩
  · have hname : (Multi.name ⟨s.setItems l n4, o⟩ == name) = true := by
      show (s.g.cfg.name == name) = true
      simpa using hme
    show mvrsFrom ⟨s, o⟩ = _
    conv => lhs; rw [← setItems_self h, hi, fromArgs]
    rw [mvrsFrom, mbind_ok (here_ok p1), mbind_ok (here_ok p2), mbind_ok (here_ok p3), mbind_ok (here_ok p4), mvFind, hname]
    simp only [if_true]
    rw [mvRange, mbind_ok (here_ok (hR (s.setItems l n4) rfl))]
    rfl
  · rw [hsame]
    exact copied_of hk hP hM (sameVec_eqv hr e2) (sameVec_eqv hd e3)

/-- **C83** `C` pushes the number of universes, `N` the name of the present one; neither changes anything else. -/
theorem C83_count {s : St} {o : List Uni} (h : s.Lifo) :
    ∃ s', mvrs 67 ⟨s, o⟩ = .ok (.none, ⟨s', o⟩) ∧ s.Leaves s' (((o.length + 1 : Nat) : Int) :: s.items) := by
  refine ⟨s.setItems (((o.length + 1 : Nat) : Int) :: s.items) (s.top.ops + 1), ?_, s.top.ops + 1, rfl⟩
  show here _ _ = _
  apply here_ok
  conv => lhs; rw [← setItems_self h]
  rw [bind_ok (pushTop_run h _ _ _)]; rfl

theorem C83_name {s : St} {o : List Uni} (h : s.Lifo) :
    ∃ s', mvrs 78 ⟨s, o⟩ = .ok (.none, ⟨s', o⟩) ∧ s.Leaves s' (s.g.cfg.name ++ 0 :: s.items) := by
  refine ⟨s.setItems (s.g.cfg.name ++ 0 :: s.items) (s.top.ops + 1 + s.g.cfg.name.length), ?_, _, rfl⟩
  show here _ _ = _
  apply here_ok
  conv => lhs; rw [← setItems_self h]
  rw [mvrsName, bind_ok (getCfg_run _), bind_ok (pushStr_run h _ _ _)]; rfl

/-! ### C84: creating universes -/

/-- What is on the stack for `B`. -/
def createArgs (dim lng flgs : Int) (name l : List Int) : List Int := dim :: lng :: flgs :: (name ++ 0 :: l)

/-- The flags `B` takes: none, or some of those above the lowest nine bits. -/
def GoodFlags (flgs : Int) : Prop := 0 ≤ flgs ∧ flgs < 2 ^ 32 ∧ flgs % 512 = 0

theorem flags_ok {flgs : Int} (h : GoodFlags flgs) : (flgs % 2 ^ 32).toNat = flgs.toNat ∧ flgs.toNat &&& 0x1FF = 0 := by
  obtain ⟨h1, h2, h3⟩ := h
  have e : (flgs % 2 ^ 32).toNat = flgs.toNat := by omega
  refine ⟨e, ?_⟩
  rw [show (0x1FF : Nat) = 2 ^ 9 - 1 from rfl, Nat.and_two_pow_sub_one_eq_mod]
  omega

/-- The language asked for: that of the creator, Funge-93 or Funge-98. -/
def language (own : Int) : Int → Option Int
  | 0 => some own
  | 1 => some 93
  | 2 => some 98
  | _ => none

/-- What `B` does once it has its arguments. -/
theorem bang_run {s : St} {o : List Uni} (h : s.Lifo) {dim lng flgs st : Int} {name l : List Int} (hn : IsStr name) (hi : s.items = createArgs dim lng flgs name l)
    (hg : GoodFlags flgs) (hl : language s.g.cfg.standard lng = some st) :
    ∃ n, mvrs 66 ⟨s, o⟩ = (do mvCreate { name := name, dims := if dim = 0 then s.g.cfg.dims else (dim % 2 ^ 64).toNat, standard := st, mode := if flgs = 0 then s.g.cfg.mode else flgs.toNat }; pure Err.none : MExec Err) ⟨s.setItems l n, o⟩ := by
  obtain ⟨n, hp⟩ := popStr h hn l (s.top.ops + 1 + 1 + 1)
  refine ⟨n, ?_⟩
  obtain ⟨f1, f2⟩ := flags_ok hg
  have f3 : (flgs.toNat = 0) = (flgs = 0) := by have := hg.1; simp only [eq_iff_iff]; omega
  show mvrsBang ⟨s, o⟩ = _
  conv => lhs; rw [← setItems_self h, hi, createArgs]
  rw [mvrsBang, mbind_ok (here_ok (popTop_head h _ _ _)), mbind_ok (here_ok (popTop_head h _ _ _)), mbind_ok (here_ok (popTop_head h _ _ _)), mbind_ok (here_ok hp),
    mbind_ok (here_ok (getCfg_run _))]
  simp only [f1, f2, ne_eq, not_true_eq_false, and_false, if_false, f3, setItems_g]
  unfold language at hl
  split at hl <;> cases hl <;> rfl

theorem taken_iff {s : St} {o : List Uni} {l n} {name : List Int} :
    (Multi.mk (s.setItems l n) o).taken name = true ↔ s.g.cfg.name = name ∨ ∃ u ∈ o, u.cfg.name = name := by
  unfold Multi.taken Multi.find Multi.name
  simp

theorem pick_free {w : Multi} {name : List Int} (ht : w.taken name = false) {fuel : Nat} (hf : 0 < fuel) : w.pickName name fuel name = .ok name := by
  obtain ⟨k, rfl⟩ : ∃ k, fuel = k + 1 := ⟨fuel - 1, by omega⟩
  rw [Multi.pickName, ht]; rfl

theorem pick_second {w : Multi} {name : List Int} (ht : w.taken name = true) (ht' : w.taken (name ++ [46, 49]) = false) {fuel : Nat} (hf : 1 < fuel) :
    w.pickName name fuel name = .ok (name ++ [46, 49]) := by
  obtain ⟨k, rfl⟩ : ∃ k, fuel = k + 1 + 1 := ⟨fuel - 2, by omega⟩
  rw [Multi.pickName, ht]
  simp only [if_true]
  rw [Multi.pickName, show name ++ 46 :: decimal 1 = name ++ [46, 49] from by congr 1, ht']; rfl

theorem pick_stuck {w : Multi} {name : List Int} (ht : w.taken name = true) (ht' : w.taken (name ++ [46, 49]) = true) (fuel : Nat) :
    w.pickName name fuel name = .error .fuel := by
  have hl : ∀ fuel, w.pickName name fuel (name ++ [46, 49]) = .error .fuel := by
    intro fuel
    induction fuel with
    | zero => rfl
    | succ k ih => rw [Multi.pickName, ht']; simp only [if_true]; rw [show name ++ 46 :: decimal 1 = name ++ [46, 49] from by congr 1]; exact ih
  cases fuel with
  | zero => rfl
  | succ k => rw [Multi.pickName, ht]; simp only [if_true]; rw [show name ++ 46 :: decimal 1 = name ++ [46, 49] from by congr 1]; exact hl k

/-- A universe as `B` should make it: nothing in it, and as asked for. -/
structure Fresh (u : Uni) (name : List Int) (dims : Int) (standard : Int) (mode : Nat) : Prop where
  name : u.cfg.name = name
  dims : (u.cfg.dims : Int) = dims
  standard : u.cfg.standard = standard
  mode : u.cfg.mode = mode
  blank : ∀ p, u.field.get p = 32
  empty : u.runners = []
  alive : u.running = true

theorem create_run {s : St} {o : List Uni} (h : s.Lifo) {dim lng flgs st : Int} {name name' l : List Int} (hn : IsStr name) (hi : s.items = createArgs dim lng flgs name l)
    (hd : 0 ≤ dim ∧ dim < 2 ^ 63) (hg : GoodFlags flgs) (hl : language s.g.cfg.standard lng = some st)
    (hp : ∀ n, (Multi.mk (s.setItems l n) o).pickName name s.g.fuel name = .ok name') :
    ∃ s' u, mvrs 66 ⟨s, o⟩ = .ok (.none, ⟨s', o ++ [u]⟩) ∧ s.Leaves s' l ∧
      Fresh u name' (if dim = 0 then s.g.cfg.dims else dim) st (if flgs = 0 then s.g.cfg.mode else flgs.toNat) ∧
      u.cfg.execute = true ∧ u.cfg.filesystem = true ∧ u.cfg.concurrent = true ∧ u.cfg.fingerprint = true := by
  obtain ⟨n, hr⟩ := bang_run (o := o) h hn hi hg hl
  refine ⟨s.setItems l n, { field := Field.new (if dim = 0 then s.g.cfg.dims else (dim % 2 ^ 64).toNat) false, cfg := { name := name', dims := if dim = 0 then s.g.cfg.dims else (dim % 2 ^ 64).toNat, standard := st, mode := if flgs = 0 then s.g.cfg.mode else flgs.toNat } }, ?_, ⟨n, rfl⟩, ?_, ?_⟩
  · rw [hr]
    exact mbind_ok (by unfold mvCreate; dsimp only; rw [setItems_g, hp n])
  · refine ⟨rfl, ?_, rfl, rfl, fun p => rfl, rfl, rfl⟩
    dsimp only
    split
    · rfl
    · omega
  · exact ⟨rfl, rfl, rfl, rfl⟩

/-- **C84** (partial: it may do more than its creator, see `C84_false_permissions`) `B` makes a new universe of that name with an empty field, nobody in it, and the
dimensions, language and modes asked for; nothing else changes but that its arguments are gone. -/
theorem C84_create_partial {s : St} {o : List Uni} (h : s.Lifo) {dim lng flgs st : Int} {name l : List Int} (hn : IsStr name) (hi : s.items = createArgs dim lng flgs name l)
    (hd : 0 ≤ dim ∧ dim < 2 ^ 63) (hg : GoodFlags flgs) (hl : language s.g.cfg.standard lng = some st) (hf : 0 < s.g.fuel)
    (hme : s.g.cfg.name ≠ name) (ho : ∀ u ∈ o, u.cfg.name ≠ name) :
    ∃ s' u, mvrs 66 ⟨s, o⟩ = .ok (.none, ⟨s', o ++ [u]⟩) ∧ s.Leaves s' l ∧
      Fresh u name (if dim = 0 then s.g.cfg.dims else dim) st (if flgs = 0 then s.g.cfg.mode else flgs.toNat) := by
  obtain ⟨s', u, h1, h2, h3, -⟩ := create_run (o := o) h hn hi hd hg hl (fun n => pick_free (by
    have h1 : (s.g.cfg.name == name) = false := by simpa using hme
    have h2 : o.find? (·.cfg.name == name) = none := by simpa using ho
    unfold Multi.taken Multi.find Multi.name
    simp [h1, h2]) hf)
  exact ⟨s', u, h1, h2, h3⟩


/-- **C84** A name that is taken gets ".1" appended. -/
theorem C84_second {s : St} {o : List Uni} (h : s.Lifo) {dim lng flgs st : Int} {name l : List Int} (hn : IsStr name) (hi : s.items = createArgs dim lng flgs name l)
    (hd : 0 ≤ dim ∧ dim < 2 ^ 63) (hg : GoodFlags flgs) (hl : language s.g.cfg.standard lng = some st) (hf : 1 < s.g.fuel)
    (ht : s.g.cfg.name = name ∨ ∃ u ∈ o, u.cfg.name = name) (hme : s.g.cfg.name ≠ name ++ [46, 49]) (ho : ∀ u ∈ o, u.cfg.name ≠ name ++ [46, 49]) :
    ∃ s' u, mvrs 66 ⟨s, o⟩ = .ok (.none, ⟨s', o ++ [u]⟩) ∧ s.Leaves s' l ∧
      Fresh u (name ++ [46, 49]) (if dim = 0 then s.g.cfg.dims else dim) st (if flgs = 0 then s.g.cfg.mode else flgs.toNat) := by
  obtain ⟨s', u, h1, h2, h3, -⟩ := create_run (o := o) h hn hi hd hg hl (fun n => pick_second (taken_iff.mpr ht) (by
    rcases hb : (Multi.mk (s.setItems l n) o).taken (name ++ [46, 49]) with _ | _
    · rfl
    · rcases taken_iff.mp hb with h | ⟨u, hu, h⟩
      · exact absurd h hme
      · exact absurd h (ho u hu)) hf)
  exact ⟨s', u, h1, h2, h3⟩

/-- **C84** is violated: when that is taken too, `B` never ends. -/
theorem C84_diverges_third {s : St} {o : List Uni} (h : s.Lifo) {dim lng flgs st : Int} {name l : List Int} (hn : IsStr name) (hi : s.items = createArgs dim lng flgs name l)
    (hg : GoodFlags flgs) (hl : language s.g.cfg.standard lng = some st)
    (ht : s.g.cfg.name = name ∨ ∃ u ∈ o, u.cfg.name = name) (ht' : s.g.cfg.name = name ++ [46, 49] ∨ ∃ u ∈ o, u.cfg.name = name ++ [46, 49]) :
    mvrs 66 ⟨s, o⟩ = .error .fuel := by
  obtain ⟨n, hr⟩ := bang_run (o := o) h hn hi hg hl
  rw [hr]
  apply mbind_error
  unfold mvCreate
  dsimp only
  rw [pick_stuck (taken_iff.mpr ht) (taken_iff.mpr ht')]

/-- **C84** An unknown language, or one of the lowest nine flags, makes `B` reflect; only its arguments are gone. -/
theorem C84_reflect {s : St} {o : List Uni} (h : s.Lifo) {dim lng flgs : Int} {name l : List Int} (hn : IsStr name) (hi : s.items = createArgs dim lng flgs name l)
    (hb : flgs % 512 ≠ 0 ∨ lng ∉ [(0 : Int), 1, 2]) : ∃ s', mvrs 66 ⟨s, o⟩ = .ok (.unspec, ⟨s', o⟩) ∧ s.Leaves s' l := by
  obtain ⟨n, hp⟩ := popStr h hn l (s.top.ops + 1 + 1 + 1)
  refine ⟨s.setItems l n, ?_, n, rfl⟩
  show mvrsBang ⟨s, o⟩ = _
  conv => lhs; rw [← setItems_self h, hi, createArgs]
  rw [mvrsBang, mbind_ok (here_ok (popTop_head h _ _ _)), mbind_ok (here_ok (popTop_head h _ _ _)), mbind_ok (here_ok (popTop_head h _ _ _)), mbind_ok (here_ok hp),
    mbind_ok (here_ok (getCfg_run _))]
  dsimp only
  by_cases hf : flgs % 512 = 0
  · have hl : lng ∉ [(0 : Int), 1, 2] := hb.resolve_left (not_not_intro hf)
    split
    · rfl
    · split
      · exact absurd (by simp) hl
      · exact absurd (by simp) hl
      · exact absurd (by simp) hl
      · rfl
  · rw [if_pos]
    · rfl
    · have e : (flgs % 2 ^ 32).toNat &&& 0x1FF ≠ 0 := by
        rw [show (0x1FF : Nat) = 2 ^ 9 - 1 from rfl, Nat.and_two_pow_sub_one_eq_mod]; omega
      exact ⟨fun h0 => e (by rw [h0]; rfl), e⟩

/-- **C84** is violated: whatever its creator may do, the new universe may run commands, touch files, split IPs and load fingerprints. -/
theorem C84_false_permissions {s : St} {o : List Uni} (h : s.Lifo) {dim lng flgs st : Int} {name l : List Int} (hn : IsStr name) (hi : s.items = createArgs dim lng flgs name l)
    (hd : 0 ≤ dim ∧ dim < 2 ^ 63) (hg : GoodFlags flgs) (hl : language s.g.cfg.standard lng = some st) (hf : 0 < s.g.fuel)
    (hme : s.g.cfg.name ≠ name) (ho : ∀ u ∈ o, u.cfg.name ≠ name) :
    ∃ s' u, mvrs 66 ⟨s, o⟩ = .ok (.none, ⟨s', o ++ [u]⟩) ∧ u.cfg.execute = true ∧ u.cfg.filesystem = true ∧ u.cfg.concurrent = true ∧ u.cfg.fingerprint = true := by
  obtain ⟨s', u, h1, -, -, h4⟩ := create_run (o := o) h hn hi hd hg hl (fun n => pick_free (by
    rcases hb : (Multi.mk (s.setItems l n) o).taken name with _ | _
    · rfl
    · rcases taken_iff.mp hb with h | ⟨u, hu, h⟩
      · exact absurd h hme
      · exact absurd h (ho u hu)) hf)
  exact ⟨s', u, h1, h4⟩

/-- A program that may not run commands: it makes a universe B, copies its second line there and goes there.
```
0"B"000B0"B"0000180P0"B"000100G@
 0"sl"=@
``` -/
def escapeMachine : St :=
  machineWith { name := [65], dims := 2, standard := 98, execute := false, fingerprints := [0x4D565253] }
    [[48, 34, 66, 34, 48, 48, 48, 66, 48, 34, 66, 34, 48, 48, 48, 48, 49, 56, 48, 80, 48, 34, 66, 34, 48, 48, 48, 49, 48, 48, 71, 64],
     [32, 48, 34, 115, 108, 34, 61, 64]]

/-- The world in which it is alone. -/
def escapeWorld : World := ⟨[escapeMachine.uni [escapeMachine.cur]], escapeMachine.g⟩

/-- The effects of a number of turns. -/
def World.effects (w : World) (l : List (List Int)) : Option (List Eff) :=
  match w.turns l with
  | .ok w' => some w'.proc.eff
  | .error _ => none

/-- **C84** is violated, by a whole program: switched off in the one universe there is, commands are run nevertheless. -/
theorem C84_false_escape : (∀ u ∈ escapeWorld.unis, u.cfg.execute = false) ∧
    escapeWorld.effects (List.replicate 31 [65] ++ List.replicate 6 [66]) = some [.system [108, 115]] := by
  constructor
  · decide +kernel
  · decide +kernel


/-! ### C85: going to another universe -/

/-- The runner of `s` with the values `l` on its top stack and its IP as `ip`, its stacks now in modes `m`; nothing else about it differs (but the age of the
stack, what FISH and *><> remember of the last horizontal delta, and which universe it is from). -/
def Carries (s : St) (r : Runner) (l : List Int) (ip : IP) (m : Nat) : Prop :=
  ∃ n a b h, r = { (s.setItems l n).cur with ss := (s.setItems l n).cur.ss.setMode m, ip := ip, fishCache := a, starCache := b, home := h }

/-- Universe `u` is the present one, with the runners that were there in `st.rest`; the old one, as it was but for the runner that left, is one of the others; and these are the
same as before apart from the two. -/
structure Arrives (s : St) (o : List Uni) (u : Uni) (w : Multi) : Prop where
  field : w.st.g.field = u.field
  cfg : w.st.g.cfg = u.cfg
  runners : w.st.rest = u.runners
  left : w.find s.g.cfg.name = some ⟨s.g.field, s.g.cfg, s.g.running, s.g.exitcode, s.g.breakpoints, s.g.watchpoints, s.rest⟩
  others : ∀ n, n ≠ s.g.cfg.name → n ≠ u.cfg.name → w.find n = Multi.find ⟨s, o⟩ n
  gone : w.find u.cfg.name = none
  effects : w.st.g.eff = s.g.eff

theorem find_name {s : St} {o : List Uni} {name : List Int} {u : Uni} (h : Multi.find ⟨s, o⟩ name = some u) : u.cfg.name = name := by
  have := List.find?_some h
  simpa using this

theorem transfer_run {s : St} {o : List Uni} {l : List Int} {n : Nat} {u : Uni} (hu : s.g.cfg.name ≠ u.cfg.name) :
    ∃ w, mvTransfer u ⟨s.setItems l n, o⟩ = .ok ((), w) ∧ Carries s w.st.cur l s.cur.ip u.cfg.mode ∧ Arrives s o u w ∧
      (s.cur.home = none → w.st.cur.home = some s.g.cfg.name) := by
  refine ⟨_, rfl, ⟨n, s.cur.fishCache, s.cur.starCache, _, rfl⟩, ?_, ?_⟩
  · constructor
    · rfl
    · rfl
    · rfl
    · unfold Multi.find
      dsimp only
      rw [List.find?_cons_of_pos]
      · rfl
      · show (s.g.cfg.name == s.g.cfg.name) = true; simp
    · intro k h1 h2
      unfold Multi.find
      dsimp only
      rw [List.find?_cons_of_neg]
      · rw [List.find?_filter]
        congr 1
        funext x
        by_cases hx : x.cfg.name = k
        · simp [hx, h2]
        · simp [hx]
      · show ¬ (s.g.cfg.name == k) = true; simpa using fun h => h1 h.symm
    · unfold Multi.find
      dsimp only
      rw [List.find?_cons_of_neg]
      · rw [List.find?_filter]
        simp
      · show ¬ (s.g.cfg.name == u.cfg.name) = true; simpa using hu
    · rfl
  · intro hh
    show (if (s.cur.home.getD s.g.cfg.name) = u.cfg.name then none else some (s.cur.home.getD s.g.cfg.name)) = _
    rw [hh]
    exact if_neg hu

/-- **C85** `J` takes the IP, with all it has, to the universe of that name; it is at the same place there, and heads the same way. -/
theorem C85_jump {s : St} {o : List Uni} (h : s.Lifo) {name l : List Int} (hn : IsStr name) (hi : s.items = name ++ 0 :: l) {u : Uni} (hme : s.g.cfg.name ≠ name)
    (hu : Multi.find ⟨s, o⟩ name = some u) :
    ∃ w, mvrs 74 ⟨s, o⟩ = .ok (.none, w) ∧ Carries s w.st.cur l s.cur.ip u.cfg.mode ∧ Arrives s o u w ∧ (s.cur.home = none → w.st.cur.home = some s.g.cfg.name) := by
  obtain ⟨n, hp⟩ := popStr h hn l s.top.ops
  have he := find_name hu
  obtain ⟨w, h1, h2, h3, h4⟩ := transfer_run (s := s) (o := o) (l := l) (n := n) (u := u) (by rw [he]; exact hme)
  refine ⟨w, ?_, h2, h3, h4⟩
  have hname : (Multi.name ⟨s.setItems l n, o⟩ == name) = false := by
    show (s.g.cfg.name == name) = false
    simpa using hme
  have hfind : Multi.find ⟨s.setItems l n, o⟩ name = some u := hu
  show mvrsJump ⟨s, o⟩ = _
  conv => lhs; rw [← setItems_self h, hi]
  rw [mvrsJump, mbind_ok (here_ok hp), mvFind, hname]
  simp only [Bool.false_eq_true, if_false, hfind]
  exact mbind_ok h1

/-- What is on the stack for `G`: the delta and the position (three coordinates each) and the name. -/
def goArgs (delta pos : Vec) (name l : List Int) : List Int := coords 3 delta ++ (coords 3 pos ++ (name ++ 0 :: l))

/-- **C85** `G` does the same, and puts the IP at that place with that delta. -/
theorem C85_goto {s : St} {o : List Uni} (h : s.Lifo) {delta pos : Vec} (hdl : delta.InDim 3) (hps : pos.InDim 3) {name l : List Int} (hn : IsStr name)
    (hi : s.items = goArgs delta pos name l) {u : Uni} (hme : s.g.cfg.name ≠ name) (hu : Multi.find ⟨s, o⟩ name = some u) (hh : hasMode u.cfg.mode modeHover = false) :
    ∃ w delta' pos', mvrs 71 ⟨s, o⟩ = .ok (.none, w) ∧ Carries s w.st.cur l { s.cur.ip with pos := pos', delta := delta' } u.cfg.mode ∧
      (∀ i, delta'.get i = delta.get i) ∧ (∀ i, pos'.get i = pos.get i) ∧ Arrives s o u w := by
  obtain ⟨w1, p1, e1⟩ := popCoords3 h delta (coords 3 pos ++ (name ++ 0 :: l)) s.top.ops
  obtain ⟨w2, p2, e2⟩ := popCoords3 h pos (name ++ 0 :: l) (s.top.ops + 3)
  obtain ⟨n, hp⟩ := popStr h hn l (s.top.ops + 3 + 3)
  have he := find_name hu
  obtain ⟨w, h1, ⟨k, a, b, hm, h2⟩, h3, -⟩ := transfer_run (s := s) (o := o) (l := l) (n := n) (u := u) (by rw [he]; exact hme)
  obtain ⟨a', b', h5⟩ := setDelta_run w1 (w.st.setIP (w.st.cur.ip.setPos w2))
  have hip : w.st.cur.ip = s.cur.ip := by rw [h2]
  refine ⟨⟨((w.st.setIP (w.st.cur.ip.setPos w2)).setCaches a' b').setIP { s.cur.ip with pos := w2, delta := w1 }, w.others⟩, w1, w2, ?_, ?_, sameVec_eqv hdl e1, sameVec_eqv hps e2, ?_⟩
  · have hname : (Multi.name ⟨s.setItems l n, o⟩ == name) = false := by
      show (s.g.cfg.name == name) = false
      simpa using hme
    have hfind : Multi.find ⟨s.setItems l n, o⟩ name = some u := hu
    show mvrsGoto ⟨s, o⟩ = _
    conv => lhs; rw [← setItems_self h, hi, goArgs]
    rw [mvrsGoto, mbind_ok (here_ok p1), mbind_ok (here_ok p2), mbind_ok (here_ok hp)]
    dsimp only
    rw [mvFind, hname]
    simp only [Bool.false_eq_true, if_false, hfind]
    rw [mbind_ok h1]
    obtain ⟨wst, wo⟩ := w
    dsimp only at *
    rw [mbind_ok (here_ok (onIP_run _ _)), mbind_ok (here_ok h5)]
    have hc : hasMode (wst.setIP (wst.cur.ip.setPos w2)).g.cfg.mode modeHover = false := by
      show hasMode wst.g.cfg.mode modeHover = false
      rw [h3.cfg]; exact hh
    rw [hc]
    show Except.ok _ = _
    simp only [St.setIP, IP.setDelta, IP.setPos, hip, Bool.false_eq_true, if_false]
  · refine ⟨k, a', b', hm, ?_⟩
    show ({ w.st.cur with fishCache := a', starCache := b', ip := _ } : Runner) = _
    rw [h2]
  · exact ⟨h3.field, h3.cfg, h3.runners, h3.left, h3.others, h3.gone, h3.effects⟩

/-- **C85** An unknown name makes `J` and `G` reflect; only their arguments are gone. -/
theorem C85_unknown {s : St} {o : List Uni} (h : s.Lifo) {c : Int} {delta pos : Vec} {name l : List Int} (hn : IsStr name)
    (hi : (c = 74 ∧ s.items = name ++ 0 :: l) ∨ (c = 71 ∧ s.items = goArgs delta pos name l)) (hme : s.g.cfg.name ≠ name) (hu : Multi.find ⟨s, o⟩ name = none) :
    ∃ s', mvrs c ⟨s, o⟩ = .ok (.unspec, ⟨s', o⟩) ∧ s.Leaves s' l := by
  have hname : ∀ n, (Multi.name ⟨s.setItems l n, o⟩ == name) = false := by
    intro n
    show (s.g.cfg.name == name) = false
    simpa using hme
  have hfind : ∀ n, Multi.find ⟨s.setItems l n, o⟩ name = none := fun _ => hu
  rcases hi with ⟨rfl, hi⟩ | ⟨rfl, hi⟩
  · obtain ⟨n, hp⟩ := popStr h hn l s.top.ops
    refine ⟨s.setItems l n, ?_, n, rfl⟩
    show mvrsJump ⟨s, o⟩ = _
    conv => lhs; rw [← setItems_self h, hi]
    rw [mvrsJump, mbind_ok (here_ok hp), mvFind, hname]
    simp only [Bool.false_eq_true, if_false, hfind]
  · obtain ⟨w1, p1, e1⟩ := popCoords3 h delta (coords 3 pos ++ (name ++ 0 :: l)) s.top.ops
    obtain ⟨w2, p2, e2⟩ := popCoords3 h pos (name ++ 0 :: l) (s.top.ops + 3)
    obtain ⟨n, hp⟩ := popStr h hn l (s.top.ops + 3 + 3)
    refine ⟨s.setItems l n, ?_, n, rfl⟩
    show mvrsGoto ⟨s, o⟩ = _
    conv => lhs; rw [← setItems_self h, hi, goArgs]
    rw [mvrsGoto, mbind_ok (here_ok p1), mbind_ok (here_ok p2), mbind_ok (here_ok hp)]
    rw [mvFind, hname]
    simp only [Bool.false_eq_true, if_false, hfind]

/-- **C85** is violated: an IP that is in another universe than the one it is from reads the field of the latter with `g`. -/
theorem C85_false_get {exec : Int → MExec Err} {s : St} {o : List Uni} (h : s.Lifo) {v : Vec} {l : List Int} (hi : s.items = coords s.g.cfg.dims v ++ l) (hv : v.InDim s.g.cfg.dims) {n : List Int} {u : Uni}
    (hh : s.cur.home = some n) (hu : Multi.find ⟨s, o⟩ n = some u) :
    ∃ s', mrunOp exec .get ⟨s, o⟩ = .ok (.none, ⟨s', o⟩) ∧ s.Leaves s' (u.field.get (v.add s.cur.ip.storage) :: l) := by
  obtain ⟨w1, p1, e1⟩ := popCoords h v l s.top.ops
  refine ⟨s.setItems (u.field.get (v.add s.cur.ip.storage) :: l) (s.top.ops + s.g.cfg.dims + 1), ?_, _, rfl⟩
  have hf : Multi.homeField ⟨s.setItems l (s.top.ops + s.g.cfg.dims), o⟩ = some u.field := by
    unfold Multi.homeField
    have : (s.setItems l (s.top.ops + s.g.cfg.dims)).cur.home = some n := hh
    simp only [this]
    have : Multi.find ⟨s.setItems l (s.top.ops + s.g.cfg.dims), o⟩ n = some u := hu
    rw [this]; rfl
  show mvGet ⟨s, o⟩ = _
  conv => lhs; rw [← setItems_self h, hi]
  rw [mvGet]
  refine (mbind_ok (here_ok (ipStorage_run _))).trans ?_
  refine (mbind_ok (here_ok p1)).trans ?_
  rw [hf]
  apply here_ok
  rw [bind_ok (pushTop_run h _ _ _)]
  have : u.field.get (w1.add (s.setItems (coords s.g.cfg.dims v ++ l) s.top.ops).cur.ip.storage) = u.field.get (v.add s.cur.ip.storage) := by
    apply Field.get_congr
    rw [Vec.eqv_iff]; intro i
    rw [Vec.get_add, Vec.get_add, sameVec_eqv hv e1]; rfl
  rw [this]; rfl


/-! Who runs an IP: -/

/-- Steps in which no IP changes its universe. -/
inductive Sched.Stays : Sched → Sched → Prop
  | refl (w : Sched) : Stays w w
  | step {w w' w'' : Sched} {u : Nat} : Stays w w' → w'.Step (.begin u) w'' ∨ w'.Step (.finish u) w'' → Stays w w''
  | spawn {w w' w'' : Sched} {u r : Nat} : Stays w w' → w'.Step (.spawn u r) w'' → Stays w w''

/-- Any steps. -/
inductive Sched.Runs : Sched → Sched → Prop
  | refl (w : Sched) : Runs w w
  | step {w w' w'' : Sched} {a : Sched.Act} : Runs w w' → w'.Step a w'' → Runs w w''

/-- No IP is run by two threads at once. -/
def Sched.Alone (w : Sched) : Prop := ∀ u v r, w.busy u = some r → w.busy v = some r → u = v

/-- Nobody is being run, and every IP waits in the list of the universe it is in. -/
def Sched.Start (w : Sched) : Prop := ∀ u, w.busy u = none ∧ ∀ r ∈ w.queue u, w.loc r = u

theorem Sched.stays_inv {w w' : Sched} (h : w.Stays w') (h0 : w.Start) :
    ∀ u, (∀ r ∈ w'.queue u, w'.loc r = u) ∧ (∀ r, w'.busy u = some r → ∃ t, w'.queue u = r :: t) := by
  induction h with
  | refl => exact fun u => ⟨(h0 u).2, fun r hr => by rw [(h0 u).1] at hr; cases hr⟩
  | @step w1 w2 u _ hs ih =>
    rcases hs with hs | hs
    · cases hs with
      | begin _ r t hq hb =>
        refine fun x => ⟨(ih x).1, fun k hk => ?_⟩
        dsimp only at hk ⊢
        split at hk
        · rename_i hx; cases hk; rw [hx]; exact ⟨t, hq⟩
        · exact (ih x).2 k hk
    · cases hs with
      | finish _ r hb =>
        intro x
        dsimp only
        by_cases hx : x = u
        · subst hx
          rw [if_pos rfl, if_pos rfl]
          refine ⟨fun k hk => ?_, fun k hk => by cases hk⟩
          rcases List.mem_append.mp hk with hk | hk
          · exact (ih x).1 k (List.mem_of_mem_tail hk)
          · split at hk
            · rename_i hl; rw [List.mem_singleton] at hk; rw [hk]; exact hl
            · cases hk
        · rw [if_neg hx, if_neg hx]
          exact ih x
  | @spawn w1 w2 u r _ hs ih =>
    cases hs with
    | spawn _ _ hf =>
      intro x
      dsimp only
      constructor
      · intro k hk
        by_cases hkr : k = r
        · rw [if_pos hkr]
          by_cases hx : x = u
          · exact hx.symm
          · rw [if_neg hx, hkr] at hk; exact absurd hk (hf x)
        · rw [if_neg hkr]
          by_cases hx : x = u
          · rw [if_pos hx] at hk
            rcases List.mem_append.mp hk with hk | hk
            · rw [hx]; exact (ih u).1 k hk
            · rw [List.mem_singleton] at hk; exact absurd hk hkr
          · rw [if_neg hx] at hk; exact (ih x).1 k hk
      · intro k hk
        obtain ⟨t, ht⟩ := (ih x).2 k hk
        by_cases hx : x = u
        · subst hx; rw [if_pos rfl, ht]; exact ⟨t ++ [r], rfl⟩
        · rw [if_neg hx]; exact ⟨t, ht⟩

/-- **C85** (partial: as long as no IP goes to another universe, see `C85_false_race`) No IP is ever run by the threads of two universes at once. -/
theorem C85_alone_partial {w w' : Sched} (h0 : w.Start) (h : w.Stays w') : w'.Alone := by
  intro u v r hu hv
  have hi := Sched.stays_inv h h0
  obtain ⟨t, ht⟩ := (hi u).2 r hu
  obtain ⟨t', ht'⟩ := (hi v).2 r hv
  rw [← (hi u).1 r (by rw [ht]; exact List.mem_cons_self), ← (hi v).1 r (by rw [ht']; exact List.mem_cons_self)]

/-- One IP, in universe 0. -/
def exSched : Sched := { queue := fun u => if u = 0 then [7] else [] }

/-- **C85** is violated: an IP that goes to another universe may be run by the thread of that one before that of its old one is done with it. -/
theorem C85_false_race : ∃ w w' : Sched, w.Start ∧ w.Runs w' ∧ ¬ w'.Alone := by
  refine ⟨exSched, _, ?_, .step (.step (.step (.refl _) (.begin 0 7 [] rfl rfl)) (.transfer 0 1 7 rfl (by decide))) (.begin 1 7 [] rfl rfl), ?_⟩
  · intro u
    refine ⟨rfl, fun r hr => ?_⟩
    unfold exSched at hr
    dsimp only at hr
    split at hr
    · rename_i h; rw [h]; rfl
    · cases hr
  · intro h
    exact absurd (h 0 1 7 rfl rfl) (by decide)

/-! ### The hypotheses are met -/

/-- A universe called B with an `x` in its field. -/
def exUni : Uni := { field := (Field.new 2 false).put (Vec.ofList [0, 0]) 120, cfg := { name := [66], dims := 2, standard := 98 } }

/-- A state in a universe called A. -/
def exHere (l : List Int) : St := (machineWith { name := [65], dims := 2, standard := 98, execute := false } [[64]]).setItems l 0

/-- `F` of an area of 1 by 1, to (3, 0). -/
example : (exHere [1, 1, 0, 0, 0, 0, 3, 66, 0, 9]).Lifo ∧ (Vec.ofList [1, 1]).InDim 2 ∧ IsStr [66] ∧
    (exHere [1, 1, 0, 0, 0, 0, 3, 66, 0, 9]).items = fromArgs 2 (Vec.ofList [1, 1]) (Vec.ofList [0]) (Vec.ofList [3, 0]) [66] [9] ∧
    (exHere [1, 1, 0, 0, 0, 0, 3, 66, 0, 9]).g.cfg.name ≠ [66] ∧ (Multi.find ⟨exHere [1, 1, 0, 0, 0, 0, 3, 66, 0, 9], [exUni]⟩ [66]).isSome = true ∧
    Field.UniqueKeys (exHere []).g.field.cells :=
  ⟨by decide +kernel, by intro i hi; exact Vec.get_of_size_le _ hi, by unfold IsStr; decide, by decide +kernel, by decide +kernel, by decide +kernel,
    by unfold Field.UniqueKeys; decide +kernel⟩

/-- `F` within A, from (0, 0) to (3, 0): the areas do not meet. -/
example : (exHere [1, 1, 0, 0, 0, 0, 3, 65, 0, 9]).items = fromArgs 2 (Vec.ofList [1, 1]) (Vec.ofList [0]) (Vec.ofList [3, 0]) [65] [9] ∧
    (exHere [1, 1, 0, 0, 0, 0, 3, 65, 0, 9]).g.cfg.name = [65] ∧
    (∀ u v, UpToSize (Vec.ofList [1, 1]) u → UpToSize (Vec.ofList [1, 1]) v → ((Vec.ofList [3, 0]).add u).eqv ((Vec.ofList [0]).add v) = false) := by
  refine ⟨by decide +kernel, by decide +kernel, fun u v hu hv => ?_⟩
  rcases hc : ((Vec.ofList [3, 0]).add u).eqv ((Vec.ofList [0]).add v) with _ | _
  · rfl
  · exfalso
    have := (Vec.eqv_iff _ _).mp hc 0
    rw [Vec.get_add, Vec.get_add, show (Vec.ofList [3, 0]).get 0 = 3 from rfl, show (Vec.ofList [0]).get 0 = 0 from rfl] at this
    have h1 := hu 0
    have h2 := hv 0
    rw [show (Vec.ofList [1, 1]).get 0 = 1 from rfl] at h1 h2
    omega

/-- `P` of an area of 1 by 1 copies four cells: the cell at (1, 1), which is outside of it, is overwritten too. -/
example : (match mvrs 80 ⟨exHere [1, 1, 0, 0, 0, 0, 0, 66, 0, 9], [{ exUni with field := (exUni.field.put (Vec.ofList [1, 1]) 121).put (Vec.ofList [0, 0]) 122 }]⟩ with
    | .ok (_, w) => w.others.map fun u => ([u.field.get (Vec.ofList [0, 0]), u.field.get (Vec.ofList [1, 1])], w.st.items)
    | .error _ => []) = [([64, 32], [9])] := by decide +kernel

/-- `B` for a universe C of the creator's dimensions and modes in Funge-93. -/
example : (exHere [0, 1, 0, 67, 0, 9]).Lifo ∧ IsStr [67] ∧ (exHere [0, 1, 0, 67, 0, 9]).items = createArgs 0 1 0 [67] [9] ∧ GoodFlags 0 ∧ GoodFlags 0x8000 ∧
    language 98 1 = some 93 ∧ 0 < (exHere []).g.fuel ∧ (exHere []).g.cfg.execute = false :=
  ⟨by decide +kernel, by unfold IsStr; decide, by decide +kernel, by unfold GoodFlags; decide, by unfold GoodFlags; decide, rfl, by decide +kernel, by decide +kernel⟩

/-- `J` and `G` to B. -/
example : (exHere [66, 0, 9]).Lifo ∧ (exHere [66, 0, 9]).items = [66] ++ 0 :: [9] ∧
    (exHere [0, 0, 1, 0, 1, 3, 66, 0, 9]).items = goArgs (Vec.ofList [1]) (Vec.ofList [3, 1]) [66] [9] ∧ hasMode exUni.cfg.mode modeHover = false :=
  ⟨by decide +kernel, by decide +kernel, by decide +kernel, by decide⟩

/-- What is on the stack after a number of instructions. -/
def Multi.after (w : Multi) : List (MExec Err) → Option (List Int)
  | [] => some w.st.items
  | m :: t => match m w with
    | .ok (_, w') => w'.after t
    | .error _ => none

/-- After `J` to B, whose cell (0, 0) holds an `x`, `00g` gives the `@` of A. -/
example : Multi.after ⟨exHere [66, 0, 0, 0, 9], [exUni]⟩ [mvrs 74, mrunOp mexecute .get] = some [64, 9] := by decide +kernel

end Funge
