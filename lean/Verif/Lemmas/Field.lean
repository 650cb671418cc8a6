import Verif.Model.Field
import Verif.Lemmas.Vec
/-! Helper lemmas about fungespace. -/
namespace Funge
namespace Vec

theorem eqv_refl (v : Vec) : v.eqv v = true := by rw [eqv_iff]; intro i; rfl
theorem eqv_symm {v w : Vec} (h : v.eqv w = true) : w.eqv v = true := by
  rw [eqv_iff] at *; intro i; exact (h i).symm
theorem eqv_trans {u v w : Vec} (h : u.eqv v = true) (h' : v.eqv w = true) : u.eqv w = true := by
  rw [eqv_iff] at *; intro i; exact (h i).trans (h' i)
theorem eqv_comm (v w : Vec) : v.eqv w = w.eqv v := by
  rw [Bool.eq_iff_iff]; exact ⟨eqv_symm, eqv_symm⟩
theorem eqv_congr_left {u v w : Vec} (h : u.eqv v = true) : u.eqv w = v.eqv w := by
  rw [Bool.eq_iff_iff]; exact ⟨fun a => eqv_trans (eqv_symm h) a, fun a => eqv_trans h a⟩

end Vec

namespace Field

theorem find_congr {cells : List (Vec × Int)} {p q : Vec} (h : p.eqv q = true) :
    find cells p = find cells q := by
  induction cells with
  | nil => rfl
  | cons kv t ih =>
    obtain ⟨k, x⟩ := kv
    simp only [find]
    have : k.eqv p = k.eqv q := by
      rw [Vec.eqv_comm k p, Vec.eqv_comm k q]; exact Vec.eqv_congr_left h
    rw [this, ih]

theorem find_store (cells : List (Vec × Int)) (p q : Vec) (v : Int) :
    find (store cells p v) q = if p.eqv q then some v else find cells q := by
  induction cells with
  | nil => simp [store, find]
  | cons kv t ih =>
    obtain ⟨k, x⟩ := kv
    simp only [store]
    by_cases h : k.eqv p = true
    · simp only [h, if_true, find]
      rw [Vec.eqv_congr_left h]
      split <;> rfl
    · simp only [h, find]
      by_cases hq : k.eqv q = true
      · have : p.eqv q = false := by
          rcases hp : p.eqv q with _ | _
          · rfl
          · exact absurd (Vec.eqv_trans hq (Vec.eqv_symm hp)) h
        simp [find, hq, this]
      · simp [find, hq, ih]

/-- Keys are pairwise different (as in any `std::unordered_map`). -/
def UniqueKeys (cells : List (Vec × Int)) : Prop :=
  cells.Pairwise (fun a b => a.1.eqv b.1 = false)

theorem find_none_of {cells : List (Vec × Int)} {p : Vec} (h : ∀ kv ∈ cells, kv.1.eqv p = false) :
    find cells p = none := by
  induction cells with
  | nil => rfl
  | cons kv t ih =>
    obtain ⟨k, x⟩ := kv
    have := h (k, x) (by simp)
    simp only [find, this]
    exact ih (fun kv hkv => h kv (List.mem_cons_of_mem _ hkv))

theorem find_erase {cells : List (Vec × Int)} (hu : UniqueKeys cells) (p q : Vec) :
    find (erase cells p) q = if p.eqv q then none else find cells q := by
  induction cells with
  | nil => simp [erase, find]
  | cons kv t ih =>
    obtain ⟨k, x⟩ := kv
    obtain ⟨h1, h2⟩ := List.pairwise_cons.mp hu
    simp only [erase]
    by_cases h : k.eqv p = true
    · simp only [h, if_true, find]
      rw [Vec.eqv_congr_left h]
      split
      · rename_i hpq
        apply find_none_of
        intro kv hkv
        have := h1 kv hkv
        rcases hc : kv.1.eqv q with _ | _
        · rfl
        · rw [Vec.eqv_congr_left (Vec.eqv_trans h hpq), Vec.eqv_comm] at this
          rw [hc] at this; simp at this
      · rfl
    · simp only [h, find]
      by_cases hq : k.eqv q = true
      · have : p.eqv q = false := by
          rcases hp : p.eqv q with _ | _
          · rfl
          · exact absurd (Vec.eqv_trans hq (Vec.eqv_symm hp)) h
        simp [find, hq, this]
      · simp [find, hq, ih h2]

theorem mem_store {cells : List (Vec × Int)} {p : Vec} {v : Int} {kv : Vec × Int}
    (h : kv ∈ store cells p v) : kv.1 = p ∨ ∃ kv' ∈ cells, kv'.1 = kv.1 := by
  induction cells with
  | nil => simp [store] at h; left; rw [h]
  | cons a t ih =>
    obtain ⟨k, x⟩ := a
    simp only [store] at h
    split at h
    · rcases List.mem_cons.mp h with rfl | h
      · right; exact ⟨(k, x), by simp, rfl⟩
      · right; exact ⟨kv, List.mem_cons_of_mem _ h, rfl⟩
    · rcases List.mem_cons.mp h with rfl | h
      · right; exact ⟨(k, x), by simp, rfl⟩
      · rcases ih h with h | ⟨kv', h1, h2⟩
        · exact Or.inl h
        · right; exact ⟨kv', List.mem_cons_of_mem _ h1, h2⟩

theorem mem_erase {cells : List (Vec × Int)} {p : Vec} {kv : Vec × Int}
    (h : kv ∈ erase cells p) : kv ∈ cells := by
  induction cells with
  | nil => simp [erase] at h
  | cons a t ih =>
    obtain ⟨k, x⟩ := a
    simp only [erase] at h
    split at h
    · exact List.mem_cons_of_mem _ h
    · rcases List.mem_cons.mp h with rfl | h
      · simp
      · exact List.mem_cons_of_mem _ (ih h)

theorem unique_erase {cells : List (Vec × Int)} (hu : UniqueKeys cells) (p : Vec) :
    UniqueKeys (erase cells p) := by
  induction cells with
  | nil => exact hu
  | cons kv t ih =>
    obtain ⟨k, x⟩ := kv
    obtain ⟨h1, h2⟩ := List.pairwise_cons.mp hu
    simp only [erase]
    split
    · exact h2
    · exact List.pairwise_cons.mpr ⟨fun kv hkv => h1 kv (mem_erase hkv), ih h2⟩

theorem unique_store {cells : List (Vec × Int)} (hu : UniqueKeys cells) (p : Vec) (v : Int) :
    UniqueKeys (store cells p v) := by
  induction cells with
  | nil => simp [store, UniqueKeys]
  | cons kv t ih =>
    obtain ⟨k, x⟩ := kv
    obtain ⟨h1, h2⟩ := List.pairwise_cons.mp hu
    simp only [store]
    by_cases h : k.eqv p = true
    · simp only [h, if_true]
      exact List.pairwise_cons.mpr ⟨h1, h2⟩
    · simp only [h]
      refine List.pairwise_cons.mpr ⟨?_, ih h2⟩
      intro kv hkv
      rcases mem_store hkv with he | ⟨kv', h3, h4⟩
      · rw [he]; simpa using h
      · rw [← h4]; exact h1 kv' h3

theorem put_cells (f : Field) (p : Vec) (v : Int) :
    (f.put p v).cells = if v = 32 then erase f.cells p
      else store f.cells p (if f.charCells then toChar v else v) := by
  unfold put; simp only; split <;> rfl

theorem put_charCells (f : Field) (p : Vec) (v : Int) : (f.put p v).charCells = f.charCells := by
  unfold put; simp only; split <;> rfl

theorem put_dims (f : Field) (p : Vec) (v : Int) : (f.put p v).dims = f.dims := by
  unfold put; simp only; split <;> rfl

theorem put_planes (f : Field) (p : Vec) (v : Int) : (f.put p v).planes = f.planes := by
  unfold put; simp only; split <;> rfl

theorem unique_put {f : Field} (hu : UniqueKeys f.cells) (p : Vec) (v : Int) :
    UniqueKeys (f.put p v).cells := by
  rw [put_cells]; split
  · exact unique_erase hu p
  · exact unique_store hu p _

theorem toChar_idem (x : Int) : toChar (toChar x) = toChar x := by
  unfold toChar; exact Int.bmod_bmod

/-- Value read back after writing `v`. -/
def cellOf (f : Field) (v : Int) : Int := if f.charCells then toChar v else v

theorem get_put {f : Field} (hu : UniqueKeys f.cells) (p q : Vec) (v : Int) :
    (f.put p v).get q = if p.eqv q then f.cellOf v else f.get q := by
  unfold get cellOf
  rw [put_cells, put_charCells]
  by_cases hv : v = 32
  · subst hv
    simp only [if_true]
    rw [find_erase hu]
    by_cases hpq : p.eqv q = true
    · simp [hpq]
    · simp [hpq]
  · simp only [hv, if_false]
    rw [find_store]
    by_cases hpq : p.eqv q = true
    · simp only [hpq, if_true]
      split <;> simp [toChar_idem]
    · simp [hpq]

theorem get_congr (f : Field) {p q : Vec} (h : p.eqv q = true) : f.get p = f.get q := by
  unfold get; rw [find_congr h]

end Field
end Funge

namespace Funge
namespace Field

/-- The loader only writes non-blank cells: a predicate preserved by such writes is preserved by loading. -/
theorem parseLoop_pred (P : Field → Prop) (hput : ∀ f p v, v ≠ 32 → P f → P (f.put p v))
    (start : Vec) (binary : Bool) (bytes : List Int) (s : PState) (h : P s.f) :
    P (parseLoop start binary bytes s).f := by
  have hnl : ∀ s : PState, P s.f → P (parseNewline start s).f := by
    intro s h; unfold parseNewline; split <;> exact h
  have hff : ∀ s : PState, P s.f → P (parseFF start s).f := by
    intro s h; unfold parseFF; split <;> exact h
  have hvt : ∀ s : PState, P s.f → P (parseVT start s).f := by
    intro s h; unfold parseVT; split <;> exact h
  have hch : ∀ (i : Int) (s : PState), P s.f → P (parseChar i s).f := by
    intro i s h; unfold parseChar; simp only; split
    · rename_i hi; exact hput _ _ _ hi h
    · exact h
  fun_induction parseLoop start binary bytes s with
  | case1 => exact h
  | case2 _ _ _ ih => exact ih (hch _ _ h)
  | case3 _ _ _ ih => exact ih (hnl _ h)
  | case4 _ _ _ _ _ ih => exact ih (hnl _ h)
  | case5 _ _ _ _ _ _ ih => exact ih (hff _ h)
  | case6 _ _ _ _ _ _ _ ih => exact ih (hvt _ h)
  | case7 _ _ _ _ _ _ _ ih => exact ih (hch _ _ h)

theorem parse_pred (P : Field → Prop) (hput : ∀ f p v, v ≠ 32 → P f → P (f.put p v))
    (hdims : ∀ f n, P f → P { f with dims := n }) (f : Field)
    (start : Vec) (binary : Bool) (bytes : List Int) (h : P f) : P (f.parse start binary bytes).2 := by
  unfold parse; simp only
  split
  · exact hdims _ _ (parseLoop_pred P hput start binary bytes _ h)
  · exact parseLoop_pred P hput start binary bytes _ h

end Field
end Funge

namespace Funge
namespace Field

/-- As `parse_pred`, also keeping track of what is known of the positions (`Q`) and of the bytes (`R`). -/
theorem parse_pred' (P : Field → Prop) (Q : Vec → Prop) (R : Int → Prop)
    (hput : ∀ f p v, v ≠ 32 → R v → Q p → P f → P (f.put p v))
    (hdims : ∀ f n, P f → P { f with dims := n }) (hset : ∀ v d x, Q v → Q (v.set d x)) (f : Field)
    (start : Vec) (binary : Bool) (bytes : List Int) (hb : ∀ b ∈ bytes, R b) (hstart : Q start) (h : P f) :
    P (f.parse start binary bytes).2 := by
  have hnl : ∀ s : PState, P s.f ∧ Q s.v → P (parseNewline start s).f ∧ Q (parseNewline start s).v := by
    intro s h; unfold parseNewline; split
    · exact ⟨h.1, hset _ _ _ (hset _ _ _ h.2)⟩
    · exact h
  have hff : ∀ s : PState, P s.f ∧ Q s.v → P (parseFF start s).f ∧ Q (parseFF start s).v := by
    intro s h; unfold parseFF; split
    · exact ⟨h.1, hset _ _ _ (hset _ _ _ (hset _ _ _ h.2))⟩
    · exact h
  have hvt : ∀ s : PState, P s.f ∧ Q s.v → P (parseVT start s).f ∧ Q (parseVT start s).v := by
    intro s h; unfold parseVT; split
    · exact ⟨h.1, hset _ _ _ (hset _ _ _ (hset _ _ _ (hset _ _ _ h.2)))⟩
    · exact h
  have hch : ∀ (i : Int) (s : PState), R i → P s.f ∧ Q s.v → P (parseChar i s).f ∧ Q (parseChar i s).v := by
    intro i s hR h; unfold parseChar; simp only
    refine ⟨?_, hset _ _ _ h.2⟩
    split
    · rename_i hi; exact hput _ _ _ hi hR h.2 h.1
    · exact h.1
  have key : ∀ s : PState, P s.f ∧ Q s.v →
      P (parseLoop start binary bytes s).f ∧ Q (parseLoop start binary bytes s).v := by
    intro s hs
    fun_induction parseLoop start binary bytes s with
    | case1 => exact hs
    | case2 t _ _ ih =>
      exact ih (fun b h => hb b (List.mem_cons_of_mem _ h)) (hch _ _ (hb 13 (by simp)) hs)
    | case3 t _ _ ih =>
      exact ih (fun b h => hb b (List.mem_cons_of_mem _ (List.mem_cons_of_mem _ h))) (hnl _ hs)
    | case4 _ _ _ _ _ ih => exact ih (fun b h => hb b (List.mem_cons_of_mem _ h)) (hnl _ hs)
    | case5 _ _ _ _ _ _ ih => exact ih (fun b h => hb b (List.mem_cons_of_mem _ h)) (hff _ hs)
    | case6 _ _ _ _ _ _ _ ih => exact ih (fun b h => hb b (List.mem_cons_of_mem _ h)) (hvt _ hs)
    | case7 i _ _ _ _ _ _ ih =>
      exact ih (fun b h => hb b (List.mem_cons_of_mem _ h)) (hch _ _ (hb i (by simp)) hs)
  unfold parse; simp only
  split
  · exact hdims _ _ (key _ ⟨h, hstart⟩).1
  · exact (key _ ⟨h, hstart⟩).1

theorem store_keeps {cells : List (Vec × Int)} {p : Vec} {v : Int} {kv : Vec × Int} (h : kv ∈ cells) :
    ∃ kv' ∈ store cells p v, kv'.1 = kv.1 := by
  induction cells with
  | nil => simp at h
  | cons a t ih =>
    obtain ⟨k, x⟩ := a
    simp only [store]
    rcases List.mem_cons.mp h with rfl | h
    · split
      · exact ⟨(k, v), by simp, rfl⟩
      · exact ⟨(k, x), by simp, rfl⟩
    · split
      · exact ⟨kv, List.mem_cons_of_mem _ h, rfl⟩
      · obtain ⟨kv', h1, h2⟩ := ih h
        exact ⟨kv', List.mem_cons_of_mem _ h1, h2⟩

theorem store_has (cells : List (Vec × Int)) (p : Vec) (v : Int) :
    ∃ kv ∈ store cells p v, kv.1.eqv p = true := by
  induction cells with
  | nil => exact ⟨(p, v), by simp [store], Vec.eqv_refl p⟩
  | cons a t ih =>
    obtain ⟨k, x⟩ := a
    simp only [store]
    split
    · rename_i h; exact ⟨(k, v), by simp, h⟩
    · obtain ⟨kv', h1, h2⟩ := ih
      exact ⟨kv', List.mem_cons_of_mem _ h1, h2⟩

theorem store_vals {cells : List (Vec × Int)} {p : Vec} {v : Int} {kv : Vec × Int} (h : kv ∈ store cells p v) :
    kv.2 = v ∨ kv ∈ cells := by
  induction cells with
  | nil => simp [store] at h; left; rw [h]
  | cons a t ih =>
    obtain ⟨k, x⟩ := a
    simp only [store] at h
    split at h
    · rcases List.mem_cons.mp h with rfl | h
      · left; rfl
      · right; exact List.mem_cons_of_mem _ h
    · rcases List.mem_cons.mp h with rfl | h
      · right; simp
      · rcases ih h with h | h
        · exact Or.inl h
        · right; exact List.mem_cons_of_mem _ h

theorem toChar_byte_ne {v : Int} (hv : v ≠ 32) (h : 0 ≤ v ∧ v ≤ 255) : toChar v ≠ 32 := by
  unfold toChar; rw [Int.bmod_eq_emod]; split <;> omega

theorem length_maxs_put (f : Field) (p : Vec) (v : Int) :
    (f.put p v).maxs.length = Max.max f.maxs.length p.size := by
  have : (pad f.maxs p.size).length = Max.max f.maxs.length p.size := by
    unfold pad; rw [List.length_append, List.length_replicate]; omega
  unfold put; simp only; split <;> simp [this]

theorem find_mem {cells : List (Vec × Int)} (hu : UniqueKeys cells) {kv : Vec × Int} (h : kv ∈ cells) :
    find cells kv.1 = some kv.2 := by
  induction cells with
  | nil => simp at h
  | cons a t ih =>
    obtain ⟨k, x⟩ := a
    obtain ⟨h1, h2⟩ := List.pairwise_cons.mp hu
    simp only [find]
    rcases List.mem_cons.mp h with rfl | h
    · simp [Vec.eqv_refl]
    · have := h1 kv h
      simp only at this
      rw [this]; simp [ih h2 h]

end Field
end Funge
