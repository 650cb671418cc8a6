import Verif.Props.C07_VectorRange
import Verif.Props.C54_STRN
/-
C56: the areas of TOYS.
-/
namespace Funge
open Exec

/-! ### Specification -/

/-- The offset `o` lies in an area of `d` axes of size `size`, whose corner is at the origin and which extends towards the sign of its size. -/
def InArea (d : Nat) (size o : Vec) : Prop :=
  ∀ i, if i < d then (0 ≤ o.get i ∧ o.get i < size.get i) ∨ (size.get i < o.get i ∧ o.get i ≤ 0) else o.get i = 0

/-- The vector has no coordinates beyond the first `d`. -/
def Vec.InDim (d : Nat) (v : Vec) : Prop := ∀ i, d ≤ i → v.get i = 0

/-- The number of cells of an area of that size. -/
def areaOf (size : Vec) : Nat → Nat
  | 0 => 1
  | k + 1 => areaOf size k * (size.get k).natAbs

/-- The place of an offset in reading order: along the first axis first. -/
def placeOf (size o : Vec) : Nat → Nat
  | 0 => 0
  | k + 1 => placeOf size o k + (o.get k).natAbs * areaOf size k

/-- The area at `dst` of `f'` is the area at `src` of `f`, and elsewhere they are equal. -/
def Copied (d : Nat) (src size dst : Vec) (f f' : Field) : Prop :=
  (∀ o, InArea d size o → f'.get (dst.add o) = f.get (src.add o)) ∧
  (∀ q, (∀ o, InArea d size o → (dst.add o).eqv q = false) → f'.get q = f.get q)

/-- The area at `dst` of `f'` is the area at `src` of `f`, the rest of the area at `src` is blank, and elsewhere they are equal. -/
def Moved (d : Nat) (src size dst : Vec) (f f' : Field) : Prop :=
  (∀ o, InArea d size o → f'.get (dst.add o) = f.get (src.add o)) ∧
  (∀ q, (∀ o, InArea d size o → (dst.add o).eqv q = false) → (∃ o, InArea d size o ∧ (src.add o).eqv q = true) → f'.get q = 32) ∧
  (∀ q, (∀ o, InArea d size o → (dst.add o).eqv q = false) → (∀ o, InArea d size o → (src.add o).eqv q = false) → f'.get q = f.get q)

/-- The two areas have no cell in common. -/
def AreasApart (d : Nat) (src size dst : Vec) : Prop :=
  ∀ o o', InArea d size o → InArea d size o' → (dst.add o).eqv (src.add o') = false

/-- On the highest axis on which they differ, `dst` lies behind `src` as seen in the direction of `size`. -/
def LiesBehind (src size dst : Vec) : Prop :=
  ∃ k, (∀ j, k < j → dst.get j = src.get j) ∧ dst.get k ≠ src.get k ∧ (dst.get k < src.get k ↔ 0 < size.get k)

/-- On the highest axis on which they differ, `dst` lies ahead of `src` as seen in the direction of `size`. -/
def LiesAhead (src size dst : Vec) : Prop :=
  ∃ k, (∀ j, k < j → dst.get j = src.get j) ∧ dst.get k ≠ src.get k ∧ (src.get k < dst.get k ↔ 0 < size.get k)

/-- `s'` is `s` with the values `l` on the top stack and the field `f`, and nothing else changed (but the age of the stack). -/
def St.Puts (s s' : St) (l : List Int) (f : Field) : Prop :=
  ∃ n, s' = (s.setG { s.g with field := f }).setItems l n

/-! ### The cells of an area -/

namespace VecRange

theorem weight_stable {a b : Nat → Int} (m : Nat) (h : ∀ i, m ≤ i → a i = 0 ∧ b i = 0) (k : Nat) :
    weight a b (m + k) = weight a b m := by
  induction k with
  | zero => rfl
  | succ k ih =>
    have := h (m + k) (by omega)
    rw [← Nat.add_assoc, weight, ih, ext, this.1, this.2]; simp

theorem rank_stable {a b c : Nat → Int} (m : Nat) (h : ∀ i, m ≤ i → a i = 0 ∧ b i = 0) (hc : ∀ i, m ≤ i → c i = 0) (k : Nat) :
    rank a b c (m + k) = rank a b c m := by
  induction k with
  | zero => rfl
  | succ k ih =>
    have := h (m + k) (by omega)
    rw [← Nat.add_assoc, rank, ih, off, this.1, hc _ (by omega)]; simp

/-- `visit_ranks` for any number of axes that is enough. -/
theorem visit_ranks_at (a b : Vec) (d : Nat) (hd : ∀ i, d ≤ i → a.get i = 0 ∧ b.get i = 0) :
    ∃ l : List Vec, (∀ fuel, weight a.get b.get d < fuel → visit fuel (new a b) = some l) ∧
      l.map (fun v => rank a.get b.get v.get d) = List.range' 0 (weight a.get b.get d) ∧
      (∀ u ∈ l, InBox a b u) := by
  obtain ⟨l, m, hz, hv, hl2, hl3⟩ := visit_ranks a b
  have key : ∀ p q, p ≤ q → (∀ i, p ≤ i → a.get i = 0 ∧ b.get i = 0) →
      weight a.get b.get q = weight a.get b.get p ∧ ∀ u ∈ l, rank a.get b.get u.get q = rank a.get b.get u.get p := by
    intro p q hpq h
    obtain ⟨k, rfl⟩ := Nat.exists_eq_add_of_le hpq
    refine ⟨weight_stable p h k, fun u hu => rank_stable p h (fun i hi => ?_) k⟩
    have := h i hi; have := hl3 u hu i; omega
  have : weight a.get b.get (m + 1) = weight a.get b.get d ∧ ∀ u ∈ l, rank a.get b.get u.get (m + 1) = rank a.get b.get u.get d := by
    by_cases h : m + 1 ≤ d
    · have := key _ _ h hz
      exact ⟨this.1.symm, fun u hu => (this.2 u hu).symm⟩
    · exact key d (m + 1) (by omega) hd
  refine ⟨l, fun fuel hf => hv fuel (by rw [this.1]; omega), ?_, hl3⟩
  rw [← this.1, ← hl2]
  exact List.map_congr_left fun u hu => (this.2 u hu).symm

end VecRange

/-- `sizeToRange` on one axis. -/
def shrink (x : Int) : Int := if 0 < x then x - 1 else if x < 0 then x + 1 else 0

theorem sizeToRangeLoop_ok (v₀ : Vec) (hz : ∀ i, i < v₀.size → v₀.get i ≠ 0) (n : Nat) :
    ∀ (d : Nat) (v : Vec), d + n = v₀.size → (∀ i, v.get i = if i < d then shrink (v₀.get i) else v₀.get i) →
      ∃ w, sizeToRangeLoop n d v = some w ∧ ∀ i, w.get i = shrink (v₀.get i) := by
  induction n with
  | zero =>
    intro d v hd hv
    refine ⟨v, rfl, fun i => ?_⟩
    rw [hv]
    split
    · rfl
    · rw [Vec.get_of_size_le _ (by omega)]; rfl
  | succ n ih =>
    intro d v hd hv
    have hd0 := hz d (by omega)
    have hvd : v.get d = v₀.get d := by rw [hv, if_neg (by omega)]
    have hsz : d < v.size := by
      apply Decidable.byContradiction
      intro h
      exact hd0 (by rw [← hvd]; exact Vec.get_of_size_le _ (by omega))
    have hnext : ∀ x, x = shrink (v₀.get d) → ∀ i, (v.set d x).get i = if i < d + 1 then shrink (v₀.get i) else v₀.get i := by
      intro x hx i
      rw [Vec.get_set, hv]
      by_cases hi : i = d
      · subst hi; rw [if_pos rfl, if_pos (by omega), hx]
      · rw [if_neg hi]
        by_cases h : i < d
        · rw [if_pos h, if_pos (by omega)]
        · rw [if_neg h, if_neg (by omega)]
    rw [sizeToRangeLoop, if_pos hsz]
    dsimp only
    rw [hvd]
    by_cases h1 : 0 < v₀.get d
    · rw [if_pos h1]
      exact ih _ _ (by omega) (hnext _ (by rw [shrink, if_pos h1]))
    · rw [if_neg h1, if_pos (by omega)]
      exact ih _ _ (by omega) (hnext _ (by rw [shrink, if_neg h1, if_pos (by omega)]))

theorem sizeToRange_ok (v : Vec) (hz : ∀ i, i < v.size → v.get i ≠ 0) :
    ∃ w, sizeToRange v = some w ∧ ∀ i, w.get i = shrink (v.get i) :=
  sizeToRangeLoop_ok v hz v.size 0 v (by omega) (by intro i; rw [if_neg (by omega)])

theorem get_zero (i : Nat) : (Vec.ofList [0]).get i = 0 := by
  rw [Vec.get_ofList]; cases i <;> simp

theorem inBox_up {d : Nat} {size b : Vec} (hs : size.InDim d) (hz : ∀ i, i < d → size.get i ≠ 0) (hb : ∀ i, b.get i = shrink (size.get i)) (o : Vec) :
    VecRange.InBox (Vec.ofList [0]) b o ↔ InArea d size o := by
  unfold VecRange.InBox InArea
  refine forall_congr' fun i => ?_
  rw [get_zero, hb]
  by_cases hi : i < d
  · have := hz i hi
    rw [if_pos hi]; unfold shrink
    constructor <;> intro h <;> (repeat' split at *) <;> omega
  · rw [if_neg hi, hs i (by omega)]; unfold shrink; simp; omega

theorem inBox_down {a b o : Vec} : VecRange.InBox a b o ↔ VecRange.InBox b a o := by
  unfold VecRange.InBox
  exact forall_congr' fun i => by omega

theorem rank_up {d : Nat} {size b : Vec} (hz : ∀ i, i < d → size.get i ≠ 0) (hb : ∀ i, b.get i = shrink (size.get i)) (o : Vec) :
    ∀ k, k ≤ d → VecRange.rank (Vec.ofList [0]).get b.get o.get k = placeOf size o k ∧ VecRange.weight (Vec.ofList [0]).get b.get k = areaOf size k ∧
      VecRange.weight b.get (Vec.ofList [0]).get k = areaOf size k := by
  intro k hk
  induction k with
  | zero => exact ⟨rfl, rfl, rfl⟩
  | succ k ih =>
    obtain ⟨h1, h2, h3⟩ := ih (by omega)
    have := hz k (by omega)
    have he : (shrink (size.get k) - 0).natAbs + 1 = (size.get k).natAbs := by unfold shrink; (repeat' split) <;> omega
    have he' : (0 - shrink (size.get k)).natAbs + 1 = (size.get k).natAbs := by unfold shrink; (repeat' split) <;> omega
    refine ⟨?_, ?_, ?_⟩
    · rw [VecRange.rank, placeOf, h1, h2, VecRange.off, get_zero, Int.sub_zero]
    · rw [VecRange.weight, areaOf, h2, VecRange.ext, hb, get_zero, he]
    · rw [VecRange.weight, areaOf, h3, VecRange.ext, hb, get_zero, he']

theorem rank_down {a b c : Nat → Int} (k : Nat) (h : ∀ i, i < k → VecRange.Btw (a i) (b i) (c i)) :
    VecRange.rank a b c k + VecRange.rank b a c k + 1 = VecRange.weight a b k := by
  have hw : ∀ k, VecRange.weight b a k = VecRange.weight a b k := by
    intro k
    induction k with
    | zero => rfl
    | succ k ih => rw [VecRange.weight, VecRange.weight, ih, VecRange.ext, VecRange.ext]; congr 1; omega
  induction k with
  | zero => rfl
  | succ k ih =>
    have := ih fun i hi => h i (by omega)
    have ho : VecRange.off a c k + VecRange.off b c k = VecRange.ext a b k := by
      have := h k (by omega)
      unfold VecRange.off VecRange.ext VecRange.Btw at *; omega
    rw [VecRange.rank, VecRange.rank, VecRange.weight, hw, Nat.mul_add, ← ho, Nat.mul_add, Nat.mul_comm (VecRange.weight a b k), Nat.mul_comm (VecRange.weight a b k)]
    omega

/-- The cells a loop over an area visits: upwards in reading order, downwards in the reverse of it. -/
theorem visit_area {d : Nat} {size b : Vec} (hs : size.InDim d) (hz : ∀ i, i < d → size.get i ≠ 0) (hb : ∀ i, b.get i = shrink (size.get i)) :
    (∃ l : List Vec, (∀ fuel, areaOf size d < fuel → (VecRange.new (Vec.ofList [0]) b).visit fuel = some l) ∧
      l.map (placeOf size · d) = List.range (areaOf size d) ∧ (∀ u ∈ l, InArea d size u)) ∧
    (∃ l : List Vec, (∀ fuel, areaOf size d < fuel → (VecRange.new b (Vec.ofList [0])).visit fuel = some l) ∧
      l.map (placeOf size · d) = (List.range (areaOf size d)).reverse ∧ (∀ u ∈ l, InArea d size u)) := by
  have hb0 : ∀ i, d ≤ i → b.get i = 0 := fun i hi => by rw [hb, hs i hi]; rfl
  have hr := fun o => rank_up hz hb o d (Nat.le_refl _)
  constructor
  · obtain ⟨l, h1, h2, h3⟩ := VecRange.visit_ranks_at (Vec.ofList [0]) b d fun i hi => ⟨get_zero i, hb0 i hi⟩
    refine ⟨l, by rw [← (hr Vec.empty).2.1]; exact h1, ?_, fun u hu => (inBox_up hs hz hb u).mp (h3 u hu)⟩
    rw [← (hr Vec.empty).2.1, List.range_eq_range', ← h2]
    exact List.map_congr_left fun u _ => (hr u).1.symm
  · obtain ⟨l, h1, h2, h3⟩ := VecRange.visit_ranks_at b (Vec.ofList [0]) d fun i hi => ⟨hb0 i hi, get_zero i⟩
    rw [(hr Vec.empty).2.2] at h1 h2
    refine ⟨l, h1, ?_, fun u hu => (inBox_up hs hz hb u).mp (inBox_down.mp (h3 u hu))⟩
    have : l.map (placeOf size · d) = (l.map (fun v => VecRange.rank b.get (Vec.ofList [0]).get v.get d)).map (fun r => areaOf size d - 1 - r) := by
      rw [List.map_map]
      refine List.map_congr_left fun u hu => ?_
      have h4 := rank_down (a := b.get) (b := (Vec.ofList [0]).get) (c := u.get) d fun i _ => h3 u hu i
      rw [(hr u).1, (hr u).2.2] at h4
      simp only [Function.comp]; omega
    rw [this, h2]
    apply List.ext_getElem
    · simp
    · intro i h _; simp

/-! ### Copying -/

/-- What the loop of `copySpace` does to the field. -/
def copyField (src dest : Vec) (move : Bool) : List Vec → Field → Field
  | [], f => f
  | v :: t, f =>
    let f₁ := f.put (dest.add v) (f.get (src.add v))
    copyField src dest move t (if move then f₁.put (src.add v) 32 else f₁)

theorem copyLoop_run (src dest : Vec) (move : Bool) (l : List Vec) (s : St) :
    copyLoop src dest move l s = .ok ((), s.setG { s.g with field := copyField src dest move l s.g.field }) := by
  induction l generalizing s with
  | nil => rfl
  | cons v t ih =>
    rw [copyLoop, bind_ok (fieldGet_run _ _), bind_ok (fieldPut_run _ _ _)]
    cases move
    · show copyLoop src dest false t _ = _
      rw [ih]; rfl
    · simp only [if_true]
      rw [bind_ok (fieldPut_run _ _ _), ih]; rfl

theorem cellOf_get (f : Field) (p : Vec) : f.cellOf (f.get p) = f.get p := by
  unfold Field.cellOf Field.get
  split
  · simp only [Field.toChar_idem]
  · rfl

theorem cellOf_blank (f : Field) : f.cellOf 32 = 32 := by
  unfold Field.cellOf
  split
  · decide
  · rfl

theorem add_congr (p : Vec) {u v : Vec} : (p.add u).eqv (p.add v) = u.eqv v := by
  have : (p.add u).eqv (p.add v) = true ↔ u.eqv v = true := by
    rw [Vec.eqv_iff, Vec.eqv_iff]
    refine forall_congr' fun i => ?_
    rw [Vec.get_add, Vec.get_add]; omega
  cases h : u.eqv v <;> cases h' : (p.add u).eqv (p.add v) <;> simp_all

/-- Copying a list of different cells in an order in which no cell is overwritten before it is copied. -/
theorem copyField_spec (src dest : Vec) (move : Bool) (l : List Vec) (f : Field) (hu : Field.UniqueKeys f.cells)
    (hd : l.Pairwise fun u v => u.eqv v = false) (ho : l.Pairwise fun u v => (dest.add u).eqv (src.add v) = false)
    (hm : move = true → ∀ v ∈ l, (dest.add v).eqv (src.add v) = false) :
    Field.UniqueKeys (copyField src dest move l f).cells ∧
    (∀ v ∈ l, (copyField src dest move l f).get (dest.add v) = f.get (src.add v)) ∧
    (∀ q, (∀ v ∈ l, (dest.add v).eqv q = false) →
      (move = true → (∃ v ∈ l, (src.add v).eqv q = true) → (copyField src dest move l f).get q = 32) ∧
      ((move = true → ∀ v ∈ l, (src.add v).eqv q = false) → (copyField src dest move l f).get q = f.get q)) := by
  induction l generalizing f with
  | nil => refine ⟨hu, by simp, fun q _ => ⟨by simp, fun _ => rfl⟩⟩
  | cons v t ih =>
    rw [List.pairwise_cons] at hd ho
    have hu₁ : Field.UniqueKeys (f.put (dest.add v) (f.get (src.add v))).cells := Field.unique_put hu _ _
    have hg₁ : ∀ q, (f.put (dest.add v) (f.get (src.add v))).get q = if (dest.add v).eqv q then f.get (src.add v) else f.get q := by
      intro q; rw [Field.get_put hu, cellOf_get]
    have hu₂ : Field.UniqueKeys (if move then (f.put (dest.add v) (f.get (src.add v))).put (src.add v) 32 else f.put (dest.add v) (f.get (src.add v))).cells := by
      split
      · exact Field.unique_put hu₁ _ _
      · exact hu₁
    have hg₂ : ∀ q, (if move then (f.put (dest.add v) (f.get (src.add v))).put (src.add v) 32 else f.put (dest.add v) (f.get (src.add v))).get q =
        if move = true ∧ (src.add v).eqv q = true then 32 else if (dest.add v).eqv q then f.get (src.add v) else f.get q := by
      intro q
      cases move
      · simp only [Bool.false_eq_true, if_false, false_and]; exact hg₁ q
      · simp only [if_true, true_and]
        rw [Field.get_put hu₁, cellOf_blank, hg₁]
    obtain ⟨h1, h2, h3⟩ := ih _ hu₂ hd.2 ho.2 (fun h v hv => hm h v (List.mem_cons_of_mem _ hv))
    refine ⟨h1, ?_, ?_⟩
    · intro u hu'
      show (copyField src dest move t _).get _ = _
      rcases List.mem_cons.mp hu' with rfl | hu'
      · rw [(h3 (dest.add u) (fun w hw => by rw [add_congr, Vec.eqv_comm]; exact hd.1 w hw)).2 (fun _ w hw => by rw [Vec.eqv_comm]; exact ho.1 w hw), hg₂,
          if_neg (by rintro ⟨h, h'⟩; rw [Vec.eqv_comm, hm h u List.mem_cons_self] at h'; cases h'), if_pos (Vec.eqv_refl _)]
      · rw [h2 u hu', hg₂, if_neg (by rintro ⟨-, h'⟩; rw [add_congr, hd.1 u hu'] at h'; cases h'), if_neg (by rw [ho.1 u hu']; decide)]
    · intro q hq
      have hqv := hq v List.mem_cons_self
      obtain ⟨h4, h5⟩ := h3 q fun w hw => hq w (List.mem_cons_of_mem _ hw)
      constructor
      · rintro hmv ⟨w, hw, hwq⟩
        show (copyField src dest move t _).get _ = _
        by_cases hex : ∃ w ∈ t, (src.add w).eqv q = true
        · exact h4 hmv hex
        · have hall : ∀ w ∈ t, (src.add w).eqv q = false := by
            intro w hw
            rcases hb : (src.add w).eqv q with _ | _
            · rfl
            · exact absurd ⟨w, hw, hb⟩ hex
          rcases List.mem_cons.mp hw with rfl | hw
          · rw [h5 (fun _ => hall), hg₂, if_pos ⟨hmv, hwq⟩]
          · rw [hall w hw] at hwq; cases hwq
      · intro hns
        show (copyField src dest move t _).get _ = _
        rw [h5 (fun h w hw => hns h w (List.mem_cons_of_mem _ hw)), hg₂,
          if_neg (by rintro ⟨h, h'⟩; rw [hns h v List.mem_cons_self] at h'; cases h'), if_neg (by rw [hqv]; decide)]

theorem sameVec_eqv {d : Nat} {v w : Vec} (hv : v.InDim d) (h : SameVec d v w) : ∀ i, w.get i = v.get i := by
  intro i
  rw [h i]
  split
  · rfl
  · exact (hv i (by omega)).symm

theorem add_eqv {v w : Vec} (h : ∀ i, w.get i = v.get i) (o : Vec) : (w.add o).eqv (v.add o) = true := by
  rw [Vec.eqv_iff]; intro i; rw [Vec.get_add, Vec.get_add, h]

/-- Popping a vector leaves it normal, so that a size vector has only the axes it needs. -/
theorem popCoordsN {s : St} (h : s.Lifo) (v : Vec) (hd : 0 < s.g.cfg.dims) (l n) :
    ∃ w : Vec, popVector (s.setItems (coords s.g.cfg.dims v ++ l) n) = .ok (w, s.setItems l (n + s.g.cfg.dims)) ∧ SameVec s.g.cfg.dims v w ∧
      w.size ≤ s.g.cfg.dims := by
  obtain ⟨w, h1, h2, h3, h4⟩ := popVector_run h (coords s.g.cfg.dims v ++ l) n
  obtain ⟨w', h1', h2'⟩ := popCoords h v l n
  rw [h1'] at h1
  obtain rfl : w' = w := by injection h1 with h; exact (Prod.mk.inj h).1
  refine ⟨w', h1', h2', ?_⟩
  apply Decidable.byContradiction
  intro hcon
  have := Vec.Normal.get_last h4 (by omega)
  rw [h2' (w'.size - 1), if_neg (by omega)] at this
  exact this rfl

/-- The cells of an area, as a loop over it visits them. -/
structure Visits (d : Nat) (size : Vec) (l : List Vec) : Prop where
  cells : ∀ o, InArea d size o ↔ ∃ u ∈ l, u.eqv o = true
  once : l.Pairwise fun u v => u.eqv v = false

theorem place_inj {d : Nat} {size b : Vec} (hs : size.InDim d) (hz : ∀ i, i < d → size.get i ≠ 0) (hb : ∀ i, b.get i = shrink (size.get i)) {u v : Vec} (hu : InArea d size u)
    (hv : InArea d size v) (h : placeOf size u d = placeOf size v d) : u.eqv v = true := by
  have hu' := (inBox_up hs hz hb u).mpr hu
  have hv' := (inBox_up hs hz hb v).mpr hv
  rw [Vec.eqv_iff]
  intro i
  by_cases hi : i < d
  · rw [← (rank_up hz hb u d (Nat.le_refl _)).1, ← (rank_up hz hb v d (Nat.le_refl _)).1] at h
    exact VecRange.rank_inj d (fun i _ => hu' i) (fun i _ => hv' i) h i hi
  · have h1 := hu i; have h2 := hv i
    rw [if_neg hi] at h1 h2; rw [h1, h2]

theorem place_lt {d : Nat} {size b : Vec} (hs : size.InDim d) (hz : ∀ i, i < d → size.get i ≠ 0) (hb : ∀ i, b.get i = shrink (size.get i)) {u : Vec} (hu : InArea d size u) :
    placeOf size u d < areaOf size d := by
  have h := VecRange.rank_lt d (fun i _ => (inBox_up hs hz hb u).mpr hu i)
  rwa [(rank_up hz hb u d (Nat.le_refl _)).1, (rank_up hz hb u d (Nat.le_refl _)).2.1] at h

theorem exists_shrunk (size : Vec) : ∃ b : Vec, ∀ i, b.get i = shrink (size.get i) := by
  refine ⟨Vec.ofList ((List.range size.size).map fun i => shrink (size.get i)), fun i => ?_⟩
  rw [Vec.get_ofList]
  by_cases hi : i < size.size
  · simp [hi]
  · rw [Vec.get_of_size_le _ (by omega)]; simp [hi]; rfl

/-- Of two cells of an area, the one earlier in reading order is nearer to the corner on the highest axis on which they differ. -/
theorem place_before {d : Nat} {size : Vec} (hs : size.InDim d) (hz : ∀ i, i < d → size.get i ≠ 0) {u v : Vec} (hu : InArea d size u)
    (hv : InArea d size v) (h : placeOf size u d < placeOf size v d) :
    ∃ k, k < d ∧ (∀ j, k < j → u.get j = v.get j) ∧ (u.get k).natAbs < (v.get k).natAbs := by
  obtain ⟨b, hb⟩ := exists_shrunk size
  rw [← (rank_up hz hb u d (Nat.le_refl _)).1, ← (rank_up hz hb v d (Nat.le_refl _)).1] at h
  obtain ⟨k, hk, hj, ho⟩ := VecRange.rank_lt_lex d (fun i _ => (inBox_up hs hz hb u).mpr hu i) (fun i _ => (inBox_up hs hz hb v).mpr hv i) h
  refine ⟨k, hk, fun j hkj => ?_, ?_⟩
  · by_cases hjd : j < d
    · exact hj j hkj hjd
    · have h1 := hu j; have h2 := hv j
      rw [if_neg hjd] at h1 h2; rw [h1, h2]
  · unfold VecRange.off at ho; rw [get_zero] at ho; omega

theorem visits_of {d : Nat} {size : Vec} {l : List Vec} (hs : size.InDim d) (hz : ∀ i, i < d → size.get i ≠ 0)
    (hl : l.map (placeOf size · d) = List.range (areaOf size d) ∨ l.map (placeOf size · d) = (List.range (areaOf size d)).reverse)
    (ha : ∀ u ∈ l, InArea d size u) : Visits d size l := by
  obtain ⟨b, hb⟩ := exists_shrunk size
  have hmem : ∀ k, k < areaOf size d → k ∈ l.map (placeOf size · d) := by
    intro k hk
    rcases hl with h | h <;> rw [h] <;> simp [hk]
  have hnd : (l.map (placeOf size · d)).Pairwise (· ≠ ·) := by
    rcases hl with h | h <;> rw [h]
    · exact List.nodup_range
    · rw [List.pairwise_reverse]; exact List.nodup_range.imp fun h => h.symm
  constructor
  · intro o
    constructor
    · intro ho
      obtain ⟨u, hu, hp⟩ := List.mem_map.mp (hmem _ (place_lt hs hz hb ho))
      exact ⟨u, hu, place_inj hs hz hb (ha u hu) ho hp⟩
    · rintro ⟨u, hu, he⟩ i
      rw [← (Vec.eqv_iff _ _).mp he i]
      exact ha u hu i
  · rw [List.pairwise_map] at hnd
    refine hnd.imp ?_
    intro u v huv
    rcases hb' : u.eqv v with _ | _
    · rfl
    · exfalso; apply huv
      have : ∀ k, placeOf size u k = placeOf size v k := by
        intro k
        induction k with
        | zero => rfl
        | succ k ih => rw [placeOf, placeOf, ih, (Vec.eqv_iff _ _).mp hb' k]
      exact this d

theorem area_congr {size size' : Vec} (h : ∀ i, size'.get i = size.get i) (k : Nat) : areaOf size' k = areaOf size k := by
  induction k with
  | zero => rfl
  | succ k ih => rw [areaOf, areaOf, ih, h]

/-- `copySpace` on vectors with the coordinates of `src`, `size` and `dst`. -/
theorem copySpace_ok {s : St} {d : Nat} (low move : Bool) (hu : Field.UniqueKeys s.g.field.cells) {src size dst src' size' dst' : Vec}
    (hs : size.InDim d) (hz : ∀ i, i < d → size.get i ≠ 0) (gr : ∀ i, src'.get i = src.get i) (gs : ∀ i, size'.get i = size.get i)
    (gd : ∀ i, dst'.get i = dst.get i) (h2'' : size'.size ≤ d) (hf : areaOf size d < s.g.fuel)
    (ho : ∀ u v, InArea d size u → InArea d size v →
      (if low then placeOf size u d < placeOf size v d else placeOf size v d < placeOf size u d) → (dst.add u).eqv (src.add v) = false)
    (hm : move = true → dst.eqv src = false) :
    ∃ f, (∀ l n, copySpace src' size' dst' low move (s.setItems l n) = .ok ((), (s.setG { s.g with field := f }).setItems l n)) ∧
      (move = false → Copied d src size dst s.g.field f) ∧ (move = true → Moved d src size dst s.g.field f) := by
  obtain ⟨b, hb, hb'⟩ := sizeToRange_ok size' (fun i hi => by rw [gs]; exact hz i (by omega))
  have hb'' : ∀ i, b.get i = shrink (size.get i) := fun i => by rw [hb', gs]
  have key : ∃ L : List Vec, (∀ t : St, t.g.fuel = s.g.fuel → (if low then rangeOf (Vec.ofList [0]) b else rangeOf b (Vec.ofList [0]) : Exec (List Vec)) t = .ok (L, t)) ∧
      Visits d size L ∧ L.Pairwise (fun u v => (dst.add u).eqv (src.add v) = false) := by
    obtain ⟨⟨L, a1, a2, a3⟩, ⟨L', b1, b2, b3⟩⟩ := visit_area hs hz hb''
    cases low
    · refine ⟨L', ?_, visits_of hs hz (.inr b2) b3, ?_⟩
      · intro t ht
        simp only [Bool.false_eq_true, if_false]
        rw [rangeOf, bind_ok (getFuel_run _), b1 _ (by rw [ht]; exact hf)]; rfl
      · have : (L'.map (placeOf size · d)).Pairwise (fun x y => y < x) := by
          rw [b2, List.pairwise_reverse]; exact List.pairwise_lt_range
        rw [List.pairwise_map] at this
        refine this.imp_of_mem ?_
        intro u v hu hv huv
        exact ho u v (b3 u hu) (b3 v hv) (by simpa using huv)
    · refine ⟨L, ?_, visits_of hs hz (.inl a2) a3, ?_⟩
      · intro t ht
        simp only [if_true]
        rw [rangeOf, bind_ok (getFuel_run _), a1 _ (by rw [ht]; exact hf)]; rfl
      · have : (L.map (placeOf size · d)).Pairwise (· < ·) := by
          rw [a2]; exact List.pairwise_lt_range
        rw [List.pairwise_map] at this
        refine this.imp_of_mem ?_
        intro u v hu hv huv
        exact ho u v (a3 u hu) (a3 v hv) (by simpa using huv)
  obtain ⟨L, hL, hV, hO⟩ := key
  have eqD : ∀ o q, (dst'.add o).eqv q = (dst.add o).eqv q := fun o q => Vec.eqv_congr_left (add_eqv gd o)
  have eqS : ∀ o q, (src'.add o).eqv q = (src.add o).eqv q := fun o q => Vec.eqv_congr_left (add_eqv gr o)
  have spec := copyField_spec src' dst' move L s.g.field hu hV.once
    (hO.imp fun {u v} huv => by rw [eqD, Vec.eqv_comm, eqS, Vec.eqv_comm]; exact huv)
    (fun hmv v _ => by
      rw [eqD, Vec.eqv_comm, eqS, Vec.eqv_comm]
      rcases hb : (dst.add v).eqv (src.add v) with _ | _
      · rfl
      · exfalso
        have : dst.eqv src = true := by
          rw [Vec.eqv_iff] at hb ⊢
          intro i; have := hb i; rw [Vec.get_add, Vec.get_add] at this; omega
        rw [hm hmv] at this; cases this)
  obtain ⟨-, c1, c2⟩ := spec
  have c1' : ∀ o, InArea d size o → (copyField src' dst' move L s.g.field).get (dst.add o) = s.g.field.get (src.add o) := by
    intro o hoA
    obtain ⟨u, hu, he⟩ := (hV.cells o).mp hoA
    have e1 : (dst'.add u).eqv (dst.add o) = true := by rw [eqD, add_congr]; exact he
    have e2 : (src'.add u).eqv (src.add o) = true := by rw [eqS, add_congr]; exact he
    rw [← Field.get_congr _ e1, ← Field.get_congr _ e2]
    exact c1 u hu
  have inV : ∀ (p p' : Vec) q, (∀ o q, (p'.add o).eqv q = (p.add o).eqv q) → (∀ o, InArea d size o → (p.add o).eqv q = false) →
      ∀ v ∈ L, (p'.add v).eqv q = false := by
    intro p p' q hpp hq v hv
    rw [hpp]
    exact hq v ((hV.cells v).mpr ⟨v, hv, Vec.eqv_refl v⟩)
  refine ⟨copyField src' dst' move L s.g.field, ?_, ?_, ?_⟩
  · intro l n
    rw [copySpace, hb]
    show ((if low then rangeOf (Vec.ofList [0]) b else rangeOf b (Vec.ofList [0]) : Exec (List Vec)) >>= fun l => copyLoop src' dst' move l) _ = _
    rw [bind_ok (hL (s.setItems l n) rfl), copyLoop_run]; rfl
  · intro hmv
    refine ⟨c1', fun q hq => (c2 q (inV dst dst' q eqD hq)).2 (fun h => by rw [hmv] at h; cases h)⟩
  · intro hmv
    refine ⟨c1', fun q hq => ?_, fun q hq hq' => ?_⟩
    · rintro ⟨o, hoA, hoq⟩
      refine (c2 q (inV dst dst' q eqD hq)).1 hmv ?_
      obtain ⟨u, hu, he⟩ := (hV.cells o).mp hoA
      refine ⟨u, hu, ?_⟩
      rw [eqS]
      have : (src.add u).eqv (src.add o) = true := by rw [add_congr]; exact he
      exact Vec.eqv_trans this hoq
    · exact (c2 q (inV dst dst' q eqD hq)).2 (fun _ => inV src src' q eqS hq')

theorem toysCopy_ok {s : St} (low move : Bool) (h : s.Lifo) (hd : 0 < s.g.cfg.dims) (hu : Field.UniqueKeys s.g.field.cells) {src size dst : Vec} {l : List Int}
    (hsr : src.InDim s.g.cfg.dims) (hds : dst.InDim s.g.cfg.dims) (hs : size.InDim s.g.cfg.dims) (hz : ∀ i, i < s.g.cfg.dims → size.get i ≠ 0)
    (hi : s.items = coords s.g.cfg.dims dst ++ coords s.g.cfg.dims size ++ coords s.g.cfg.dims src ++ l) (hf : areaOf size s.g.cfg.dims < s.g.fuel)
    (ho : ∀ u v, InArea s.g.cfg.dims size u → InArea s.g.cfg.dims size v →
      (if low then placeOf size u s.g.cfg.dims < placeOf size v s.g.cfg.dims else placeOf size v s.g.cfg.dims < placeOf size u s.g.cfg.dims) →
      (dst.add u).eqv (src.add v) = false)
    (hm : move = true → dst.eqv src = false) :
    ∃ s' f, toysCopy low move s = .ok (.none, s') ∧ s.Puts s' l f ∧ (move = false → Copied s.g.cfg.dims src size dst s.g.field f) ∧
      (move = true → Moved s.g.cfg.dims src size dst s.g.field f) := by
  obtain ⟨dst', h1, h1', -⟩ := popCoordsN h dst hd (coords s.g.cfg.dims size ++ (coords s.g.cfg.dims src ++ l)) s.top.ops
  obtain ⟨size', h2, h2', h2''⟩ := popCoordsN h size hd (coords s.g.cfg.dims src ++ l) (s.top.ops + s.g.cfg.dims)
  obtain ⟨src', h3, h3', -⟩ := popCoordsN h src hd l (s.top.ops + s.g.cfg.dims + s.g.cfg.dims)
  have gd := sameVec_eqv hds h1'
  have gs := sameVec_eqv hs h2'
  have gr := sameVec_eqv hsr h3'
  obtain ⟨f, c1, c2, c3⟩ := copySpace_ok low move hu hs hz gr gs gd h2'' hf ho hm
  refine ⟨_, f, ?_, ⟨s.top.ops + s.g.cfg.dims + s.g.cfg.dims + s.g.cfg.dims, rfl⟩, c2, c3⟩
  conv => lhs; rw [← setItems_self h, hi, List.append_assoc, List.append_assoc]
  rw [toysCopy, bind_ok h1, bind_ok h2, bind_ok h3, bind_ok (c1 _ _)]; rfl

/-- Two areas that meet do so at cells which differ as the areas do. -/
theorem meet_axis {d : Nat} {size u v : Vec} (hs : size.InDim d) (hz : ∀ i, i < d → size.get i ≠ 0) (hu : InArea d size u)
    (hv : InArea d size v) (h : placeOf size u d < placeOf size v d) {x y : Vec} (he : ∀ i, x.get i + u.get i = y.get i + v.get i)
    {k : Nat} (hk : ∀ j, k < j → x.get j = y.get j) (hne : x.get k ≠ y.get k) :
    y.get k < x.get k ↔ 0 < size.get k := by
  obtain ⟨k', hk', hj, ho⟩ := place_before hs hz hu hv h
  have : k' = k := by
    rcases Nat.lt_trichotomy k k' with h1 | h1 | h1
    · exfalso; have := hk k' h1; have := he k'; have : u.get k' = v.get k' := by omega
      rw [this] at ho; omega
    · exact h1.symm
    · exfalso; have := hj k h1; have := he k; omega
  subst this
  have h1 := hu k'; have h2 := hv k'
  rw [if_pos hk'] at h1 h2
  have := hz k' hk'
  have := he k'
  constructor <;> intro h <;> omega

/-- **C56.** `C` makes the destination equal to the source and changes nothing else, if the two are apart, the destination lies behind the
source, or they are the same. -/
theorem C56_copy_low_partial {s : St} (h : s.Lifo) (hd : 0 < s.g.cfg.dims) (hu : Field.UniqueKeys s.g.field.cells) {src size dst : Vec} {l : List Int}
    (hsr : src.InDim s.g.cfg.dims) (hds : dst.InDim s.g.cfg.dims) (hs : size.InDim s.g.cfg.dims) (hz : ∀ i, i < s.g.cfg.dims → size.get i ≠ 0)
    (hi : s.items = coords s.g.cfg.dims dst ++ coords s.g.cfg.dims size ++ coords s.g.cfg.dims src ++ l) (hf : areaOf size s.g.cfg.dims < s.g.fuel)
    (ho : AreasApart s.g.cfg.dims src size dst ∨ LiesBehind src size dst ∨ dst.eqv src = true) :
    ∃ s' f, fpRun .TOYS 67 s = .ok (.none, s') ∧ s.Puts s' l f ∧ Copied s.g.cfg.dims src size dst s.g.field f := by
  obtain ⟨s', f, h1, h2, h3, -⟩ := toysCopy_ok true false h hd hu hsr hds hs hz hi hf (by
    intro u v hu hv huv
    simp only [if_true] at huv
    rcases hb : (dst.add u).eqv (src.add v) with _ | _
    · rfl
    exfalso
    rw [Vec.eqv_iff] at hb
    simp only [Vec.get_add] at hb
    rcases ho with ho | ⟨k, hk, hne, hlt⟩ | ho
    · have := ho u v hu hv
      rw [Bool.eq_false_iff, Ne, Vec.eqv_iff] at this
      simp only [Vec.get_add] at this
      exact this hb
    · have := meet_axis hs hz hu hv huv hb hk hne
      rcases Int.lt_trichotomy (src.get k) (dst.get k) with hlt' | hlt' | hlt'
      · have h1 := this.mp hlt'; have := hlt.mpr h1; omega
      · omega
      · have h1 := hlt.mp hlt'; have := this.mpr h1; omega
    · rw [Vec.eqv_iff] at ho
      obtain ⟨k, -, -, hk⟩ := place_before hs hz hu hv huv
      have h1 := ho k; have h2 := hb k
      have : u.get k = v.get k := by omega
      rw [this] at hk; omega) (by simp)
  exact ⟨s', f, h1, h2, h3 rfl⟩

/-- **C56.** `K` does so if the destination lies ahead of the source. -/
theorem C56_copy_high_partial {s : St} (h : s.Lifo) (hd : 0 < s.g.cfg.dims) (hu : Field.UniqueKeys s.g.field.cells) {src size dst : Vec} {l : List Int}
    (hsr : src.InDim s.g.cfg.dims) (hds : dst.InDim s.g.cfg.dims) (hs : size.InDim s.g.cfg.dims) (hz : ∀ i, i < s.g.cfg.dims → size.get i ≠ 0)
    (hi : s.items = coords s.g.cfg.dims dst ++ coords s.g.cfg.dims size ++ coords s.g.cfg.dims src ++ l) (hf : areaOf size s.g.cfg.dims < s.g.fuel)
    (ho : AreasApart s.g.cfg.dims src size dst ∨ LiesAhead src size dst ∨ dst.eqv src = true) :
    ∃ s' f, fpRun .TOYS 75 s = .ok (.none, s') ∧ s.Puts s' l f ∧ Copied s.g.cfg.dims src size dst s.g.field f := by
  obtain ⟨s', f, h1, h2, h3, -⟩ := toysCopy_ok false false h hd hu hsr hds hs hz hi hf (by
    intro u v hu hv huv
    simp only [Bool.false_eq_true, if_false] at huv
    rcases hb : (dst.add u).eqv (src.add v) with _ | _
    · rfl
    exfalso
    rw [Vec.eqv_iff] at hb
    simp only [Vec.get_add] at hb
    rcases ho with ho | ⟨k, hk, hne, hlt⟩ | ho
    · have := ho u v hu hv
      rw [Bool.eq_false_iff, Ne, Vec.eqv_iff] at this
      simp only [Vec.get_add] at this
      exact this hb
    · have := meet_axis hs hz hv hu huv (x := src) (y := dst) (fun i => (hb i).symm) (fun j hj => (hk j hj).symm) (fun h => hne h.symm)
      rcases Int.lt_trichotomy (src.get k) (dst.get k) with hlt' | hlt' | hlt'
      · have h1 := hlt.mp hlt'; have := this.mpr h1; omega
      · omega
      · have h1 := this.mp hlt'; have := hlt.mpr h1; omega
    · rw [Vec.eqv_iff] at ho
      obtain ⟨k, -, -, hk⟩ := place_before hs hz hv hu huv
      have h1 := ho k; have h2 := hb k
      have : u.get k = v.get k := by omega
      rw [this] at hk; omega) (by simp)
  exact ⟨s', f, h1, h2, h3 rfl⟩

/-- **C56.** `M` makes the destination equal to what the source was, blanks the rest of the source and changes nothing else, if the two are
apart or the destination lies behind the source. -/
theorem C56_move_low_partial {s : St} (h : s.Lifo) (hd : 0 < s.g.cfg.dims) (hu : Field.UniqueKeys s.g.field.cells) {src size dst : Vec} {l : List Int}
    (hsr : src.InDim s.g.cfg.dims) (hds : dst.InDim s.g.cfg.dims) (hs : size.InDim s.g.cfg.dims) (hz : ∀ i, i < s.g.cfg.dims → size.get i ≠ 0)
    (hi : s.items = coords s.g.cfg.dims dst ++ coords s.g.cfg.dims size ++ coords s.g.cfg.dims src ++ l) (hf : areaOf size s.g.cfg.dims < s.g.fuel)
    (ho : (AreasApart s.g.cfg.dims src size dst ∨ LiesBehind src size dst) ∧ dst.eqv src = false) :
    ∃ s' f, fpRun .TOYS 77 s = .ok (.none, s') ∧ s.Puts s' l f ∧ Moved s.g.cfg.dims src size dst s.g.field f := by
  obtain ⟨s', f, h1, h2, -, h3⟩ := toysCopy_ok true true h hd hu hsr hds hs hz hi hf (by
    intro u v hu hv huv
    simp only [if_true] at huv
    rcases hb : (dst.add u).eqv (src.add v) with _ | _
    · rfl
    exfalso
    rw [Vec.eqv_iff] at hb
    simp only [Vec.get_add] at hb
    rcases ho.1 with ho | ⟨k, hk, hne, hlt⟩
    · have := ho u v hu hv
      rw [Bool.eq_false_iff, Ne, Vec.eqv_iff] at this
      simp only [Vec.get_add] at this
      exact this hb
    · have := meet_axis hs hz hu hv huv hb hk hne
      rcases Int.lt_trichotomy (src.get k) (dst.get k) with hlt' | hlt' | hlt'
      · have h1 := this.mp hlt'; have := hlt.mpr h1; omega
      · omega
      · have h1 := hlt.mp hlt'; have := this.mpr h1; omega) (fun _ => ho.2)
  exact ⟨s', f, h1, h2, h3 rfl⟩

/-- **C56.** `V` does so if the two are apart or the destination lies ahead of the source. -/
theorem C56_move_high_partial {s : St} (h : s.Lifo) (hd : 0 < s.g.cfg.dims) (hu : Field.UniqueKeys s.g.field.cells) {src size dst : Vec} {l : List Int}
    (hsr : src.InDim s.g.cfg.dims) (hds : dst.InDim s.g.cfg.dims) (hs : size.InDim s.g.cfg.dims) (hz : ∀ i, i < s.g.cfg.dims → size.get i ≠ 0)
    (hi : s.items = coords s.g.cfg.dims dst ++ coords s.g.cfg.dims size ++ coords s.g.cfg.dims src ++ l) (hf : areaOf size s.g.cfg.dims < s.g.fuel)
    (ho : (AreasApart s.g.cfg.dims src size dst ∨ LiesAhead src size dst) ∧ dst.eqv src = false) :
    ∃ s' f, fpRun .TOYS 86 s = .ok (.none, s') ∧ s.Puts s' l f ∧ Moved s.g.cfg.dims src size dst s.g.field f := by
  obtain ⟨s', f, h1, h2, -, h3⟩ := toysCopy_ok false true h hd hu hsr hds hs hz hi hf (by
    intro u v hu hv huv
    simp only [Bool.false_eq_true, if_false] at huv
    rcases hb : (dst.add u).eqv (src.add v) with _ | _
    · rfl
    exfalso
    rw [Vec.eqv_iff] at hb
    simp only [Vec.get_add] at hb
    rcases ho.1 with ho | ⟨k, hk, hne, hlt⟩
    · have := ho u v hu hv
      rw [Bool.eq_false_iff, Ne, Vec.eqv_iff] at this
      simp only [Vec.get_add] at this
      exact this hb
    · have := meet_axis hs hz hv hu huv (x := src) (y := dst) (fun i => (hb i).symm) (fun j hj => (hk j hj).symm) (fun h => hne h.symm)
      rcases Int.lt_trichotomy (src.get k) (dst.get k) with hlt' | hlt' | hlt'
      · have h1 := hlt.mp hlt'; have := this.mpr h1; omega
      · omega
      · have h1 := this.mp hlt'; have := hlt.mpr h1; omega) (fun _ => ho.2)
  exact ⟨s', f, h1, h2, h3 rfl⟩

/-! ### Filling, storing and fetching -/

theorem toysSLoop_run (dest : Vec) (x : Int) (L : List Vec) (s : St) :
    toysSLoop dest x L s = .ok ((), s.setG { s.g with field := L.foldl (fun f v => f.put (dest.add v) x) s.g.field }) := by
  induction L generalizing s with
  | nil => rfl
  | cons v t ih => rw [toysSLoop, bind_ok (fieldPut_run _ _ _), ih]; rfl

theorem fill_spec (dest : Vec) (x : Int) (L : List Vec) (f : Field) (hu : Field.UniqueKeys f.cells) (q : Vec) :
    (L.foldl (fun f v => f.put (dest.add v) x) f).get q = if ∃ v ∈ L, (dest.add v).eqv q = true then f.cellOf x else f.get q := by
  induction L generalizing f with
  | nil => simp
  | cons v t ih =>
    rw [List.foldl_cons, ih _ (Field.unique_put hu _ _), Field.get_put hu]
    have : (f.put (dest.add v) x).cellOf x = f.cellOf x := by unfold Field.cellOf; rw [Field.put_charCells]
    rw [this]
    by_cases h1 : ∃ w ∈ t, (dest.add w).eqv q = true
    · rw [if_pos h1, if_pos (by obtain ⟨w, hw, h⟩ := h1; exact ⟨w, List.mem_cons_of_mem _ hw, h⟩)]
    · rw [if_neg h1]
      by_cases h2 : (dest.add v).eqv q = true
      · rw [if_pos h2, if_pos ⟨v, List.mem_cons_self, h2⟩]
      · rw [if_neg h2, if_neg]
        rintro ⟨w, hw, h⟩
        rcases List.mem_cons.mp hw with rfl | hw
        · exact h2 h
        · exact h1 ⟨w, hw, h⟩

/-- **C56.** `S` fills the area with the value and changes nothing else. -/
theorem C56_fill {s : St} (h : s.Lifo) (hd : 0 < s.g.cfg.dims) (hu : Field.UniqueKeys s.g.field.cells) {size dst : Vec} {x : Int} {l : List Int}
    (hds : dst.InDim s.g.cfg.dims) (hs : size.InDim s.g.cfg.dims) (hz : ∀ i, i < s.g.cfg.dims → size.get i ≠ 0)
    (hi : s.items = coords s.g.cfg.dims dst ++ coords s.g.cfg.dims size ++ x :: l) (hf : areaOf size s.g.cfg.dims < s.g.fuel) :
    ∃ s' f, fpRun .TOYS 83 s = .ok (.none, s') ∧ s.Puts s' l f ∧
      (∀ o, InArea s.g.cfg.dims size o → f.get (dst.add o) = s.g.field.cellOf x) ∧
      (∀ q, (∀ o, InArea s.g.cfg.dims size o → (dst.add o).eqv q = false) → f.get q = s.g.field.get q) := by
  obtain ⟨dst', h1, h1', -⟩ := popCoordsN h dst hd (coords s.g.cfg.dims size ++ x :: l) s.top.ops
  obtain ⟨size', h2, h2', h2''⟩ := popCoordsN h size hd (x :: l) (s.top.ops + s.g.cfg.dims)
  have gd := sameVec_eqv hds h1'
  have gs := sameVec_eqv hs h2'
  obtain ⟨b, hb, hb'⟩ := sizeToRange_ok size' (fun i hi => by rw [gs]; exact hz i (by omega))
  have hb'' : ∀ i, b.get i = shrink (size.get i) := fun i => by rw [hb', gs]
  obtain ⟨⟨L, a1, a2, a3⟩, -⟩ := visit_area hs hz hb''
  have hV := visits_of hs hz (.inl a2) a3
  have eqD : ∀ o q, (dst'.add o).eqv q = (dst.add o).eqv q := fun o q => Vec.eqv_congr_left (add_eqv gd o)
  refine ⟨_, L.foldl (fun f v => f.put (dst'.add v) x) s.g.field, ?_, ⟨s.top.ops + s.g.cfg.dims + s.g.cfg.dims + 1, rfl⟩, ?_, ?_⟩
  · show toysFill s = _
    conv => lhs; rw [← setItems_self h, hi, List.append_assoc]
    rw [toysFill, bind_ok h1, bind_ok h2, bind_ok (popTop_head h _ _ _), hb]
    have hr : rangeOf (Vec.ofList [0]) b (s.setItems l (s.top.ops + s.g.cfg.dims + s.g.cfg.dims + 1)) = .ok (L, s.setItems l (s.top.ops + s.g.cfg.dims + s.g.cfg.dims + 1)) := by
      rw [rangeOf, bind_ok (getFuel_run _), setItems_g, a1 _ hf]; rfl
    show (rangeOf (Vec.ofList [0]) b >>= fun l => toysSLoop dst' x l >>= fun _ => pure Err.none) _ = _
    rw [bind_ok hr, bind_ok (toysSLoop_run _ _ _ _)]
    rfl
  · intro o ho
    obtain ⟨u, hu', he⟩ := (hV.cells o).mp ho
    rw [fill_spec _ _ _ _ hu, if_pos ⟨u, hu', by rw [eqD, add_congr]; exact he⟩]
  · intro q hq
    rw [fill_spec _ _ _ _ hu, if_neg]
    rintro ⟨v, hv, h'⟩
    rw [eqD, hq v (a3 v hv)] at h'; cases h'

/-- What the loop of `F` does to the field. -/
def storeField (dest : Vec) : List Vec → List Int → Field → Field
  | [], _, f => f
  | v :: t, l, f => storeField dest t l.tail (f.put (dest.add v) (l.headD 0))

theorem toysFLoop_run {s : St} (h : s.Lifo) (dest : Vec) (L : List Vec) (f : Field) (l : List Int) (n : Nat) :
    toysFLoop dest L ((s.setG { s.g with field := f }).setItems l n) =
      .ok ((), (s.setG { s.g with field := storeField dest L l f }).setItems (l.drop L.length) (n + L.length)) := by
  induction L generalizing f l n with
  | nil => rfl
  | cons v t ih =>
    have h' : (s.setG { s.g with field := f }).Lifo := h
    rw [toysFLoop, bind_ok (popTop_run h' _ _), bind_ok (fieldPut_run _ _ _)]
    show toysFLoop dest t ((s.setG { s.g with field := f.put (dest.add v) (l.headD 0) }).setItems l.tail (n + 1)) = _
    rw [ih, List.drop_tail, List.length_cons, Nat.add_assoc, Nat.add_comm 1]; rfl

theorem storeField_spec (dest : Vec) (L : List Vec) (l : List Int) (f : Field) (hu : Field.UniqueKeys f.cells)
    (hd : L.Pairwise fun u v => u.eqv v = false) :
    (∀ (i : Nat) (hi : i < L.length), (storeField dest L l f).get (dest.add L[i]) = f.cellOf (l.getD i 0)) ∧
    (∀ q, (∀ v ∈ L, (dest.add v).eqv q = false) → (storeField dest L l f).get q = f.get q) := by
  induction L generalizing f l with
  | nil => exact ⟨fun i hi => absurd hi (Nat.not_lt_zero i), fun _ _ => rfl⟩
  | cons v t ih =>
    rw [List.pairwise_cons] at hd
    obtain ⟨h1, h2⟩ := ih l.tail (f.put (dest.add v) (l.headD 0)) (Field.unique_put hu _ _) hd.2
    have hc : ∀ x, (f.put (dest.add v) (l.headD 0)).cellOf x = f.cellOf x := by intro x; unfold Field.cellOf; rw [Field.put_charCells]
    refine ⟨?_, ?_⟩
    · intro i hi
      show (storeField dest t l.tail _).get _ = _
      cases i with
      | zero =>
        rw [List.getElem_cons_zero, h2 (dest.add v) (fun w hw => by rw [add_congr, Vec.eqv_comm]; exact hd.1 w hw), Field.get_put hu, if_pos (Vec.eqv_refl _)]
        cases l <;> rfl
      | succ i =>
        rw [List.getElem_cons_succ, h1 i (by simpa using hi), hc]
        cases l <;> rfl
    · intro q hq
      show (storeField dest t l.tail _).get _ = _
      rw [h2 q (fun w hw => hq w (List.mem_cons_of_mem _ hw)), Field.get_put hu, if_neg (by rw [hq v List.mem_cons_self]; decide)]

theorem place_congr (size : Vec) {u v : Vec} (h : u.eqv v = true) (k : Nat) : placeOf size u k = placeOf size v k := by
  induction k with
  | zero => rfl
  | succ k ih => rw [placeOf, placeOf, ih, (Vec.eqv_iff _ _).mp h k]

/-- **C56.** `F` pops as many values as the area has cells and stores them there in reading order, zeros standing in for missing ones, and
changes nothing else. -/
theorem C56_store {s : St} (h : s.Lifo) (hd : 0 < s.g.cfg.dims) (hu : Field.UniqueKeys s.g.field.cells) {size dst : Vec} {l : List Int}
    (hds : dst.InDim s.g.cfg.dims) (hs : size.InDim s.g.cfg.dims) (hz : ∀ i, i < s.g.cfg.dims → size.get i ≠ 0)
    (hi : s.items = coords s.g.cfg.dims dst ++ coords s.g.cfg.dims size ++ l) (hf : areaOf size s.g.cfg.dims < s.g.fuel) :
    ∃ s' f, fpRun .TOYS 70 s = .ok (.none, s') ∧ s.Puts s' (l.drop (areaOf size s.g.cfg.dims)) f ∧
      (∀ o, InArea s.g.cfg.dims size o → f.get (dst.add o) = s.g.field.cellOf (l.getD (placeOf size o s.g.cfg.dims) 0)) ∧
      (∀ q, (∀ o, InArea s.g.cfg.dims size o → (dst.add o).eqv q = false) → f.get q = s.g.field.get q) := by
  obtain ⟨dst', h1, h1', -⟩ := popCoordsN h dst hd (coords s.g.cfg.dims size ++ l) s.top.ops
  obtain ⟨size', h2, h2', h2''⟩ := popCoordsN h size hd l (s.top.ops + s.g.cfg.dims)
  have gd := sameVec_eqv hds h1'
  have gs := sameVec_eqv hs h2'
  obtain ⟨b, hb, hb'⟩ := sizeToRange_ok size' (fun i hi => by rw [gs]; exact hz i (by omega))
  have hb'' : ∀ i, b.get i = shrink (size.get i) := fun i => by rw [hb', gs]
  obtain ⟨⟨L, a1, a2, a3⟩, -⟩ := visit_area hs hz hb''
  have hV := visits_of hs hz (.inl a2) a3
  have hlen : L.length = areaOf size s.g.cfg.dims := by
    have := congrArg List.length a2; simpa using this
  have eqD : ∀ o q, (dst'.add o).eqv q = (dst.add o).eqv q := fun o q => Vec.eqv_congr_left (add_eqv gd o)
  obtain ⟨c1, c2⟩ := storeField_spec dst' L l s.g.field hu hV.once
  refine ⟨_, storeField dst' L l s.g.field, ?_, ⟨s.top.ops + s.g.cfg.dims + s.g.cfg.dims + L.length, rfl⟩, ?_, ?_⟩
  · show toysPutBlock s = _
    conv => lhs; rw [← setItems_self h, hi, List.append_assoc]
    rw [toysPutBlock, bind_ok h1, bind_ok h2, hb, ← hlen]
    have hr : rangeOf (Vec.ofList [0]) b (s.setItems l (s.top.ops + s.g.cfg.dims + s.g.cfg.dims)) = .ok (L, s.setItems l (s.top.ops + s.g.cfg.dims + s.g.cfg.dims)) := by
      rw [rangeOf, bind_ok (getFuel_run _), setItems_g, a1 _ hf]; rfl
    show (rangeOf (Vec.ofList [0]) b >>= fun l => toysFLoop dst' l >>= fun _ => pure Err.none) _ = _
    rw [bind_ok hr, bind_ok (show toysFLoop dst' L (s.setItems l (s.top.ops + s.g.cfg.dims + s.g.cfg.dims)) = _ from toysFLoop_run h dst' L s.g.field l _)]
    rfl
  · intro o ho
    obtain ⟨u, hu', he⟩ := (hV.cells o).mp ho
    obtain ⟨i, hi', rfl⟩ := List.getElem_of_mem hu'
    have hp : placeOf size o s.g.cfg.dims = i := by
      rw [← place_congr size he]
      have : (L.map (placeOf size · s.g.cfg.dims))[i]'(by simpa using hi') = i := by simp [a2]
      simpa using this
    have e1 : (dst'.add L[i]).eqv (dst.add o) = true := by rw [eqD, add_congr]; exact he
    rw [hp, ← Field.get_congr _ e1]
    exact c1 i hi'
  · intro q hq
    refine c2 q fun v hv => ?_
    rw [eqD]; exact hq v (a3 v hv)

theorem toysGLoop_run {s : St} (h : s.Lifo) (src : Vec) (L : List Vec) (l : List Int) (n : Nat) :
    toysGLoop src L (s.setItems l n) = .ok ((), s.setItems ((L.map fun v => s.g.field.get (src.add v)).reverse ++ l) (n + L.length)) := by
  induction L generalizing l n with
  | nil => rfl
  | cons v t ih =>
    rw [toysGLoop, bind_ok (fieldGet_run _ _), bind_ok (pushTop_run h _ _ _), ih]
    simp [Nat.add_comm, Nat.add_left_comm]

/-- **C56.** `G` pushes the cells of the area so that they lie on the stack in reading order, the first on top, and changes nothing else. -/
theorem C56_fetch {s : St} (h : s.Lifo) (hd : 0 < s.g.cfg.dims) {size src : Vec} {l : List Int}
    (hsr : src.InDim s.g.cfg.dims) (hs : size.InDim s.g.cfg.dims) (hz : ∀ i, i < s.g.cfg.dims → size.get i ≠ 0)
    (hi : s.items = coords s.g.cfg.dims src ++ coords s.g.cfg.dims size ++ l) (hf : areaOf size s.g.cfg.dims < s.g.fuel) :
    ∃ s' cells, fpRun .TOYS 71 s = .ok (.none, s') ∧ s.Leaves s' (cells ++ l) ∧ cells.length = areaOf size s.g.cfg.dims ∧
      (∀ o, InArea s.g.cfg.dims size o → cells[placeOf size o s.g.cfg.dims]? = some (s.g.field.get (src.add o))) := by
  obtain ⟨src', h1, h1', -⟩ := popCoordsN h src hd (coords s.g.cfg.dims size ++ l) s.top.ops
  obtain ⟨size', h2, h2', h2''⟩ := popCoordsN h size hd l (s.top.ops + s.g.cfg.dims)
  have gd := sameVec_eqv hsr h1'
  have gs := sameVec_eqv hs h2'
  obtain ⟨b, hb, hb'⟩ := sizeToRange_ok size' (fun i hi => by rw [gs]; exact hz i (by omega))
  have hb'' : ∀ i, b.get i = shrink (size.get i) := fun i => by rw [hb', gs]
  obtain ⟨-, ⟨L, a1, a2, a3⟩⟩ := visit_area hs hz hb''
  have hV := visits_of hs hz (.inr a2) a3
  have hlen : L.length = areaOf size s.g.cfg.dims := by
    have := congrArg List.length a2; simpa using this
  have eqS : ∀ o q, (src'.add o).eqv q = (src.add o).eqv q := fun o q => Vec.eqv_congr_left (add_eqv gd o)
  have a2' : L.reverse.map (placeOf size · s.g.cfg.dims) = List.range (areaOf size s.g.cfg.dims) := by
    rw [List.map_reverse, a2, List.reverse_reverse]
  refine ⟨_, (L.map fun v => s.g.field.get (src'.add v)).reverse, ?_, ⟨s.top.ops + s.g.cfg.dims + s.g.cfg.dims + L.length, rfl⟩, by simp [hlen], ?_⟩
  · show toysGetBlock s = _
    conv => lhs; rw [← setItems_self h, hi, List.append_assoc]
    rw [toysGetBlock, bind_ok h1, bind_ok h2, hb]
    have hr : rangeOf b (Vec.ofList [0]) (s.setItems l (s.top.ops + s.g.cfg.dims + s.g.cfg.dims)) = .ok (L, s.setItems l (s.top.ops + s.g.cfg.dims + s.g.cfg.dims)) := by
      rw [rangeOf, bind_ok (getFuel_run _), setItems_g, a1 _ hf]; rfl
    show (rangeOf b (Vec.ofList [0]) >>= fun l => toysGLoop src' l >>= fun _ => pure Err.none) _ = _
    rw [bind_ok hr, bind_ok (toysGLoop_run h src' L l _)]
    rfl
  · intro o ho
    obtain ⟨u, hu', he⟩ := (hV.cells o).mp ho
    obtain ⟨i, hi', rfl⟩ := List.getElem_of_mem (List.mem_reverse.mpr hu')
    have hp : placeOf size o s.g.cfg.dims = i := by
      rw [← place_congr size he]
      have : (L.reverse.map (placeOf size · s.g.cfg.dims))[i]'(by simpa using hi') = i := by simp [a2']
      simpa using this
    have e1 : (src'.add L.reverse[i]).eqv (src.add o) = true := by rw [eqS, add_congr]; exact he
    rw [hp, ← Field.get_congr _ e1, ← List.map_reverse, List.getElem?_map, List.getElem?_eq_getElem hi']
    rfl

/-! ### Shifting a column or a row -/

theorem size_ofList_le (l : List Int) : (Vec.ofList l).size ≤ l.length := by
  have : ∀ m : List Int, (Vec.stripRev m).length ≤ m.length := by
    intro m
    fun_induction Vec.stripRev m with
    | case1 => rename_i ih; simp at ih ⊢; omega
    | case2 => exact Nat.le_refl _
    | case3 => exact Nat.le_refl _
  have h := this l.reverse
  simpa [Vec.size, Vec.ofList, Vec.normalize] using h

theorem get_pair (a b : Int) (i : Nat) : (Vec.ofList [a, b]).get i = if i = 0 then a else if i = 1 then b else 0 := by
  rw [Vec.get_ofList]
  match i with
  | 0 => rfl
  | 1 => rfl
  | i + 2 => simp

theorem inArea_pair {w h : Int} {o : Vec} (hw : 0 < w) (hh : 0 < h) : InArea 2 (Vec.ofList [w, h]) o ↔
    (0 ≤ o.get 0 ∧ o.get 0 < w) ∧ (0 ≤ o.get 1 ∧ o.get 1 < h) ∧ ∀ i, 2 ≤ i → o.get i = 0 := by
  constructor
  · intro ha
    refine ⟨?_, ?_, ?_⟩
    · have := ha 0; rw [if_pos (by decide), get_pair] at this; simp at this; omega
    · have := ha 1; rw [if_pos (by decide), get_pair] at this; simp at this; omega
    · intro i hi; have := ha i; rwa [if_neg (by omega)] at this
  · rintro ⟨h0, h1, h2⟩ i
    match i with
    | 0 => rw [if_pos (by decide), get_pair]; exact .inl h0
    | 1 => rw [if_pos (by decide), get_pair]; exact .inl h1
    | i + 2 => rw [if_neg (by omega)]; exact h2 _ (by omega)

/-- The cell at (`x`, `y`). -/
abbrev cellAt (x y : Int) : Vec := Vec.ofList [x, y]

theorem cellAt_eqv {x y : Int} {q : Vec} : (cellAt x y).eqv q = true ↔ q.get 0 = x ∧ q.get 1 = y ∧ ∀ i, 2 ≤ i → q.get i = 0 := by
  rw [Vec.eqv_iff]
  constructor
  · intro h
    refine ⟨?_, ?_, fun i hi => ?_⟩
    · have := h 0; rw [get_pair] at this; exact this.symm
    · have := h 1; rw [get_pair] at this; exact this.symm
    · have := h i; rw [get_pair, if_neg (by omega), if_neg (by omega)] at this; exact this.symm
  · rintro ⟨h0, h1, h2⟩ i
    rw [get_pair]
    match i with
    | 0 => exact h0.symm
    | 1 => exact h1.symm
    | i + 2 => rw [if_neg (by omega), if_neg (by omega)]; exact (h2 _ (by omega)).symm

theorem cellAt_add (x y a b : Int) : ((cellAt x y).add (cellAt a b)).eqv (cellAt (x + a) (y + b)) = true := by
  rw [Vec.eqv_iff]
  intro i
  rw [Vec.get_add, get_pair, get_pair, get_pair]
  split
  · rfl
  · split <;> rfl

theorem cellAt_add' (x y : Int) {o : Vec} (h : ∀ i, 2 ≤ i → o.get i = 0) : ((cellAt x y).add o).eqv (cellAt (x + o.get 0) (y + o.get 1)) = true := by
  rw [Vec.eqv_iff]
  intro i
  rw [Vec.get_add, get_pair, get_pair]
  match i with
  | 0 => rfl
  | 1 => rfl
  | i + 2 => rw [if_neg (by omega), if_neg (by omega), if_neg (by omega), if_neg (by omega), h _ (by omega)]; rfl

/-- **C56.** `J` shifts the column of the IP, as far as the bounds of the field reach, by `n` cells, and leaves blanks behind. -/
theorem C56_column {s : St} (h : s.Lifo) (hu : Field.UniqueKeys s.g.field.cells) {n : Int} {l : List Int} (hi : s.items = n :: l) (hn : n ≠ 0)
    (hb : s.g.field.min 1 ≤ s.g.field.max 1) (hf : (s.g.field.max 1 - s.g.field.min 1 + 1).natAbs < s.g.fuel) :
    ∃ s' f, fpRun .TOYS 74 s = .ok (.none, s') ∧ s.Puts s' l f ∧
      (∀ y, s.g.field.min 1 ≤ y → y ≤ s.g.field.max 1 → f.get (cellAt (s.cur.ip.pos.get 0) (y + n)) = s.g.field.get (cellAt (s.cur.ip.pos.get 0) y)) ∧
      (∀ y, s.g.field.min 1 ≤ y → y ≤ s.g.field.max 1 → ¬(s.g.field.min 1 ≤ y - n ∧ y - n ≤ s.g.field.max 1) → f.get (cellAt (s.cur.ip.pos.get 0) y) = 32) ∧
      (∀ q, (∀ y, s.g.field.min 1 ≤ y → y ≤ s.g.field.max 1 → (cellAt (s.cur.ip.pos.get 0) y).eqv q = false ∧ (cellAt (s.cur.ip.pos.get 0) (y + n)).eqv q = false) →
        f.get q = s.g.field.get q) := by
  generalize hx : s.cur.ip.pos.get 0 = x
  generalize hy1 : s.g.field.min 1 = y1 at *
  generalize hy2 : s.g.field.max 1 = y2 at *
  have hs : (Vec.ofList [1, y2 - y1 + 1]).InDim 2 := by
    intro i hi; rw [get_pair, if_neg (by omega), if_neg (by omega)]
  have hz : ∀ i, i < 2 → (Vec.ofList [1, y2 - y1 + 1]).get i ≠ 0 := by
    intro i hi; rw [get_pair]
    split
    · decide
    · rw [if_pos (by omega)]; omega
  have hA : ∀ o, InArea 2 (Vec.ofList [1, y2 - y1 + 1]) o ↔ _ := fun o => inArea_pair (o := o) (show (0 : Int) < 1 by decide) (show 0 < y2 - y1 + 1 by omega)
  obtain ⟨f, c1, -, c2⟩ := copySpace_ok (s := s) (d := 2) (src := cellAt x y1) (dst := cellAt x (y1 + n)) (size := Vec.ofList [1, y2 - y1 + 1]) (decide (n < 0)) true hu hs hz
    (fun _ => rfl) (fun _ => rfl) (fun _ => rfl) (size_ofList_le _) (by simp only [areaOf, get_pair]; simpa using hf) (by
      intro u v hu hv huv
      rcases hb : ((cellAt x (y1 + n)).add u).eqv ((cellAt x y1).add v) with _ | _
      · rfl
      exfalso
      rw [Vec.eqv_iff] at hb
      simp only [Vec.get_add] at hb
      by_cases hneg : n < 0
      · simp only [hneg, decide_true, if_true] at huv
        have := meet_axis hs hz hu hv huv hb (k := 1) (by intro j hj; simp only [get_pair]; rw [if_neg (by omega), if_neg (by omega), if_neg (by omega), if_neg (by omega)])
          (by simp only [get_pair]; simp; omega)
        simp only [get_pair] at this; simp at this; omega
      · simp only [hneg, decide_false, Bool.false_eq_true, if_false] at huv
        have := meet_axis hs hz hv hu huv (x := cellAt x y1) (y := cellAt x (y1 + n)) (fun i => (hb i).symm) (k := 1)
          (by intro j hj; simp only [get_pair]; rw [if_neg (by omega), if_neg (by omega), if_neg (by omega), if_neg (by omega)])
          (by simp only [get_pair]; simp; omega)
        simp only [get_pair] at this; simp at this; omega) (by
      intro _
      rw [Bool.eq_false_iff, Ne, Vec.eqv_iff]
      intro h; have := h 1; rw [get_pair, get_pair] at this; simp at this; omega)
  obtain ⟨m1, m2, m3⟩ := c2 rfl
  have inA : ∀ y, y1 ≤ y → y ≤ y2 → InArea 2 (Vec.ofList [1, y2 - y1 + 1]) (cellAt 0 (y - y1)) := by
    intro y h1 h2
    rw [hA]
    refine ⟨by rw [get_pair]; simp, by rw [get_pair]; simp; omega, fun i hi => by rw [get_pair, if_neg (by omega), if_neg (by omega)]⟩
  refine ⟨_, f, ?_, ⟨s.top.ops + 1, rfl⟩, ?_, ?_, ?_⟩
  · show toysColumn s = _
    conv => lhs; rw [← setItems_self h, hi]
    rw [toysColumn, bind_ok (popTop_head h _ _ _), if_neg hn]
    show (copySpace (Vec.ofList [s.cur.ip.pos.get 0, s.g.field.min 1]) (Vec.ofList [1, s.g.field.max 1 - s.g.field.min 1 + 1])
      (Vec.ofList [s.cur.ip.pos.get 0, s.g.field.min 1 + n]) (decide (n < 0)) true >>= fun _ => pure Err.none) (s.setItems l (s.top.ops + 1)) = _
    rw [hx, hy1, hy2, bind_ok (c1 _ _)]; rfl
  · intro y h1 h2
    have := m1 _ (inA y h1 h2)
    rw [Field.get_congr _ (cellAt_add _ _ _ _), Field.get_congr _ (cellAt_add _ _ _ _), Int.add_zero, show y1 + n + (y - y1) = y + n by omega,
      show y1 + (y - y1) = y by omega] at this
    exact this
  · intro y h1 h2 h3
    refine m2 _ ?_ ⟨_, inA y h1 h2, ?_⟩
    · intro o ho
      obtain ⟨-, o1, o2⟩ := (hA o).mp ho
      rw [Vec.eqv_congr_left (cellAt_add' _ _ o2), Bool.eq_false_iff, Ne, cellAt_eqv]
      rintro ⟨-, h5, -⟩
      rw [get_pair] at h5; simp at h5; omega
    · rw [Vec.eqv_congr_left (cellAt_add _ _ _ _), Int.add_zero, show y1 + (y - y1) = y by omega]; exact Vec.eqv_refl _
  · intro q hq
    refine m3 q ?_ ?_
    · intro o ho
      obtain ⟨o0, o1, o2⟩ := (hA o).mp ho
      rw [Vec.eqv_congr_left (cellAt_add' _ _ o2), show o.get 0 = 0 by omega, Int.add_zero, show y1 + n + o.get 1 = y1 + o.get 1 + n by omega]
      exact (hq _ (by omega) (by omega)).2
    · intro o ho
      obtain ⟨o0, o1, o2⟩ := (hA o).mp ho
      rw [Vec.eqv_congr_left (cellAt_add' _ _ o2), show o.get 0 = 0 by omega, Int.add_zero]
      exact (hq _ (by omega) (by omega)).1

/-- **C56.** `O` shifts the row of the IP, as far as the bounds of the field reach, by `n` cells, and leaves blanks behind. -/
theorem C56_row {s : St} (h : s.Lifo) (hu : Field.UniqueKeys s.g.field.cells) {n : Int} {l : List Int} (hi : s.items = n :: l) (hn : n ≠ 0)
    (hb : s.g.field.min 0 ≤ s.g.field.max 0) (hf : (s.g.field.max 0 - s.g.field.min 0 + 1).natAbs < s.g.fuel) :
    ∃ s' f, fpRun .TOYS 79 s = .ok (.none, s') ∧ s.Puts s' l f ∧
      (∀ y, s.g.field.min 0 ≤ y → y ≤ s.g.field.max 0 → f.get (cellAt (y + n) (s.cur.ip.pos.get 1)) = s.g.field.get (cellAt y (s.cur.ip.pos.get 1))) ∧
      (∀ y, s.g.field.min 0 ≤ y → y ≤ s.g.field.max 0 → ¬(s.g.field.min 0 ≤ y - n ∧ y - n ≤ s.g.field.max 0) → f.get (cellAt y (s.cur.ip.pos.get 1)) = 32) ∧
      (∀ q, (∀ y, s.g.field.min 0 ≤ y → y ≤ s.g.field.max 0 → (cellAt y (s.cur.ip.pos.get 1)).eqv q = false ∧ (cellAt (y + n) (s.cur.ip.pos.get 1)).eqv q = false) →
        f.get q = s.g.field.get q) := by
  generalize hx : s.cur.ip.pos.get 1 = x
  generalize hy1 : s.g.field.min 0 = y1 at *
  generalize hy2 : s.g.field.max 0 = y2 at *
  have hs : (Vec.ofList [y2 - y1 + 1, 1]).InDim 2 := by
    intro i hi; rw [get_pair, if_neg (by omega), if_neg (by omega)]
  have hz : ∀ i, i < 2 → (Vec.ofList [y2 - y1 + 1, 1]).get i ≠ 0 := by
    intro i hi; rw [get_pair]
    split
    · omega
    · rw [if_pos (by omega)]; decide
  have hA : ∀ o, InArea 2 (Vec.ofList [y2 - y1 + 1, 1]) o ↔ _ := fun o => inArea_pair (o := o) (show 0 < y2 - y1 + 1 by omega) (show (0 : Int) < 1 by decide)
  obtain ⟨f, c1, -, c2⟩ := copySpace_ok (s := s) (d := 2) (src := cellAt y1 x) (dst := cellAt (y1 + n) x) (size := Vec.ofList [y2 - y1 + 1, 1]) (decide (n < 0)) true hu hs hz
    (fun _ => rfl) (fun _ => rfl) (fun _ => rfl) (size_ofList_le _) (by simp only [areaOf, get_pair]; simpa using hf) (by
      intro u v hu hv huv
      rcases hb : ((cellAt (y1 + n) x).add u).eqv ((cellAt y1 x).add v) with _ | _
      · rfl
      exfalso
      rw [Vec.eqv_iff] at hb
      simp only [Vec.get_add] at hb
      by_cases hneg : n < 0
      · simp only [hneg, decide_true, if_true] at huv
        have := meet_axis hs hz hu hv huv hb (k := 0) (by intro j hj; simp only [get_pair]; simp [show j ≠ 0 by omega])
          (by simp only [get_pair]; simp; omega)
        simp only [get_pair] at this; simp at this; omega
      · simp only [hneg, decide_false, Bool.false_eq_true, if_false] at huv
        have := meet_axis hs hz hv hu huv (x := cellAt y1 x) (y := cellAt (y1 + n) x) (fun i => (hb i).symm) (k := 0)
          (by intro j hj; simp only [get_pair]; simp [show j ≠ 0 by omega])
          (by simp only [get_pair]; simp; omega)
        simp only [get_pair] at this; simp at this; omega) (by
      intro _
      rw [Bool.eq_false_iff, Ne, Vec.eqv_iff]
      intro h; have := h 0; rw [get_pair, get_pair] at this; simp at this; omega)
  obtain ⟨m1, m2, m3⟩ := c2 rfl
  have inA : ∀ y, y1 ≤ y → y ≤ y2 → InArea 2 (Vec.ofList [y2 - y1 + 1, 1]) (cellAt (y - y1) 0) := by
    intro y h1 h2
    rw [hA]
    refine ⟨by rw [get_pair]; simp; omega, by rw [get_pair]; simp, fun i hi => by rw [get_pair, if_neg (by omega), if_neg (by omega)]⟩
  refine ⟨_, f, ?_, ⟨s.top.ops + 1, rfl⟩, ?_, ?_, ?_⟩
  · show toysRow s = _
    conv => lhs; rw [← setItems_self h, hi]
    rw [toysRow, bind_ok (popTop_head h _ _ _), if_neg hn]
    show (copySpace (Vec.ofList [s.g.field.min 0, s.cur.ip.pos.get 1]) (Vec.ofList [s.g.field.max 0 - s.g.field.min 0 + 1, 1])
      (Vec.ofList [s.g.field.min 0 + n, s.cur.ip.pos.get 1]) (decide (n < 0)) true >>= fun _ => pure Err.none) (s.setItems l (s.top.ops + 1)) = _
    rw [hx, hy1, hy2, bind_ok (c1 _ _)]; rfl
  · intro y h1 h2
    have := m1 _ (inA y h1 h2)
    rw [Field.get_congr _ (cellAt_add _ _ _ _), Field.get_congr _ (cellAt_add _ _ _ _), Int.add_zero, show y1 + n + (y - y1) = y + n by omega,
      show y1 + (y - y1) = y by omega] at this
    exact this
  · intro y h1 h2 h3
    refine m2 _ ?_ ⟨_, inA y h1 h2, ?_⟩
    · intro o ho
      obtain ⟨o1, -, o2⟩ := (hA o).mp ho
      rw [Vec.eqv_congr_left (cellAt_add' _ _ o2), Bool.eq_false_iff, Ne, cellAt_eqv]
      rintro ⟨h5, -⟩
      rw [get_pair] at h5; simp at h5; omega
    · rw [Vec.eqv_congr_left (cellAt_add _ _ _ _), Int.add_zero, show y1 + (y - y1) = y by omega]; exact Vec.eqv_refl _
  · intro q hq
    refine m3 q ?_ ?_
    · intro o ho
      obtain ⟨o1, o0, o2⟩ := (hA o).mp ho
      rw [Vec.eqv_congr_left (cellAt_add' _ _ o2), show o.get 1 = 0 by omega, Int.add_zero, show y1 + n + o.get 0 = y1 + o.get 0 + n by omega]
      exact (hq _ (by omega) (by omega)).2
    · intro o ho
      obtain ⟨o1, o0, o2⟩ := (hA o).mp ho
      rw [Vec.eqv_congr_left (cellAt_add' _ _ o2), show o.get 1 = 0 by omega, Int.add_zero]
      exact (hq _ (by omega) (by omega)).1

/-! ### Where the property fails -/

/-- The cells of row 0, and the stack, after an instruction of TOYS on the stack `l` with "abc" in row 0. -/
def toysRow0 (i : Int) (l : List Int) : Option (List Int × List Int) :=
  match fpRun .TOYS i ((machine [97, 98, 99]).setItems l 0) with
  | .ok (_, s) => some ([0, 1, 2, 3, 4, 5].map fun x => s.g.field.get (cellAt x 0), s.items)
  | .error _ => none

/-- The stack for a copy in two dimensions. -/
def toysArgs (src size dst : Vec) : List Int := coords 2 dst ++ coords 2 size ++ coords 2 src

/-- **C56** does not hold for overlapping areas: `C` to the area one cell ahead smears the first cell over it, and so does `K` to the area one cell
behind. The other instruction of the two gets it right. -/
theorem C56_false_for_overlap :
    toysRow0 67 (toysArgs (cellAt 0 0) (cellAt 3 1) (cellAt 1 0)) = some ([97, 97, 97, 97, 32, 32], []) ∧
    toysRow0 75 (toysArgs (cellAt 0 0) (cellAt 3 1) (cellAt 1 0)) = some ([97, 97, 98, 99, 32, 32], []) ∧
    toysRow0 75 (toysArgs (cellAt 1 0) (cellAt 2 1) (cellAt 0 0)) = some ([99, 99, 99, 32, 32, 32], []) ∧
    toysRow0 67 (toysArgs (cellAt 1 0) (cellAt 2 1) (cellAt 0 0)) = some ([98, 99, 99, 32, 32, 32], []) := by decide +kernel

/-- **C56** does not hold for moves of an area onto itself: they blank it. -/
theorem C56_false_onto_itself :
    toysRow0 77 (toysArgs (cellAt 0 0) (cellAt 3 1) (cellAt 0 0)) = some ([32, 32, 32, 32, 32, 32], []) ∧
    toysRow0 86 (toysArgs (cellAt 0 0) (cellAt 3 1) (cellAt 0 0)) = some ([32, 32, 32, 32, 32, 32], []) := by decide +kernel

/-- **C56** does not hold for an area without rows: it has no cells (`InArea` is empty), but the zero is dropped from the size vector and so `S`
fills a row; an area without columns is left alone. -/
theorem C56_false_for_empty :
    (∀ o, ¬InArea 2 (cellAt 3 0) o) ∧ toysRow0 83 (coords 2 (cellAt 2 0) ++ coords 2 (cellAt 3 0) ++ [120]) = some ([97, 98, 120, 120, 120, 32], []) ∧
    toysRow0 83 (coords 2 (cellAt 2 0) ++ coords 2 (cellAt 0 3) ++ [120]) = some ([97, 98, 99, 32, 32, 32], []) := by
  refine ⟨fun o h => ?_, by decide +kernel, by decide +kernel⟩
  have := h 1
  rw [if_pos (by decide), get_pair] at this
  simp at this; omega

/-- **C56** does not hold for `J` in three dimensions: it shifts the column at level 0, whatever level the IP is on. -/
theorem C56_false_in_3d :
    (match fpRun .TOYS 74 (({ machineWith { dims := 3, standard := 98 } [[97], [98]] with
        cur := newRunner { dims := 3, standard := 98 } 0 (Vec.ofList [0, 0, 5]) (Vec.ofList [1]) }).setItems [1] 0) with
      | .ok (_, s) => some ([0, 1, 2].map fun y => s.g.field.get (cellAt 0 y))
      | .error _ => none) = some [32, 97, 98] := by decide +kernel

/-! ### Examples -/

/-- The hypotheses of the copies and moves hold for "abc" copied to the cells behind and ahead of it and to the next line. -/
example : ((machine [97, 98, 99]).setItems (toysArgs (cellAt 0 0) (cellAt 3 1) (cellAt 1 0)) 0).Lifo ∧
    ((machine [97, 98, 99]).setItems (toysArgs (cellAt 0 0) (cellAt 3 1) (cellAt 1 0)) 0).items = toysArgs (cellAt 0 0) (cellAt 3 1) (cellAt 1 0) ∧
    areaOf (cellAt 3 1) 2 < (machine []).g.fuel := by decide +kernel

example : (∀ i, i < 2 → (cellAt 3 1).get i ≠ 0) ∧ (cellAt 3 1).InDim 2 ∧ LiesAhead (cellAt 0 0) (cellAt 3 1) (cellAt 1 0) ∧
    LiesBehind (cellAt 1 0) (cellAt 3 1) (cellAt 0 0) ∧ LiesBehind (cellAt 0 0) (cellAt (-3) 1) (cellAt 1 0) ∧ AreasApart 2 (cellAt 0 0) (cellAt 3 1) (cellAt 0 1) := by
  refine ⟨by decide, ?_, ⟨0, ?_, by decide, by decide⟩, ⟨0, ?_, by decide, by decide⟩, ⟨0, ?_, by decide, by decide⟩, ?_⟩
  · intro i hi; rw [get_pair, if_neg (by omega), if_neg (by omega)]
  · intro j hj; rw [get_pair, get_pair]; simp [show j ≠ 0 by omega]
  · intro j hj; rw [get_pair, get_pair]; simp [show j ≠ 0 by omega]
  · intro j hj; rw [get_pair, get_pair]; simp [show j ≠ 0 by omega]
  · intro o o' ho ho'
    have h1 := ((inArea_pair (by decide) (by decide)).mp ho).2.1
    have h2 := ((inArea_pair (by decide) (by decide)).mp ho').2.1
    rw [Bool.eq_false_iff, Ne, Vec.eqv_iff]
    intro h
    have := h 1
    rw [Vec.get_add, Vec.get_add, get_pair, get_pair] at this
    simp at this; omega

/-- A matrix of two rows is fetched and stored elsewhere; the values are those in reading order. -/
example : stackAfter (machineWith { dims := 2, standard := 98 } [[34, 83, 89, 79, 84, 34, 52, 40, 50, 50, 48, 49, 71], [97, 98], [99, 100]]) 13 =
    some ([97, 98, 99, 100] ++ [1, 1414486355]) ∧ placeOf (cellAt 2 2) (cellAt 1 1) 2 = 3 ∧ areaOf (cellAt 2 2) 2 = 4 := by decide +kernel

/-- The program `1J` moves its first column. -/
example : let s := (machine [49, 74]).setItems [1] 0
    s.Lifo ∧ s.items = 1 :: [] ∧ s.g.field.min 1 ≤ s.g.field.max 1 ∧ (s.g.field.max 1 - s.g.field.min 1 + 1).natAbs < s.g.fuel ∧
    s.g.field.min 0 ≤ s.g.field.max 0 ∧ (s.g.field.max 0 - s.g.field.min 0 + 1).natAbs < s.g.fuel := by decide +kernel

end Funge
