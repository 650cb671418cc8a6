import Verif.Lemmas.Field
/-!
# C08, C09, C10: fungespace is a total map with a bounding box

A *history* is the list of writes `put(p, v)` in the order in which they were made.
-/
namespace Funge
namespace Field

/-- Two vectors denote the same point of the (infinite dimensional) space. -/
def SamePoint (p q : Vec) : Prop := ∀ i, p.get i = q.get i

/-- Fields the program can have: empty ones, and what `put` and the text loader make of them. -/
inductive Reachable : Field → Prop
  | new (dims : Nat) (c : Bool) : Reachable (Field.new dims c)
  | put (f : Field) (p : Vec) (v : Int) : Reachable f → Reachable (f.put p v)
  | parse (f : Field) (start : Vec) (binary : Bool) (bytes : List Int) :
      Reachable f → Reachable (f.parse start binary bytes).2

/-- The field after a history of writes. -/
def writes (f : Field) (hist : List (Vec × Int)) : Field :=
  hist.foldl (fun f w => f.put w.1 w.2) f

theorem Reachable.unique {f : Field} (h : Reachable f) : UniqueKeys f.cells := by
  induction h with
  | new => exact List.Pairwise.nil
  | put f p v _ ih => exact unique_put ih p v
  | parse f start binary bytes _ ih =>
    exact parse_pred (fun f => UniqueKeys f.cells) (fun f p v _ h => unique_put h p v) (fun _ _ h => h)
      f start binary bytes ih

theorem writes_append (f : Field) (h1 h2 : List (Vec × Int)) :
    f.writes (h1 ++ h2) = (f.writes h1).writes h2 := List.foldl_append

theorem Reachable.writes {f : Field} (h : Reachable f) (hist : List (Vec × Int)) :
    Reachable (f.writes hist) := by
  induction hist generalizing f with
  | nil => exact h
  | cons w t ih => exact ih (Reachable.put f w.1 w.2 h)

theorem writes_charCells (f : Field) (hist : List (Vec × Int)) :
    (f.writes hist).charCells = f.charCells := by
  induction hist generalizing f with
  | nil => rfl
  | cons w t ih => exact (ih _).trans (put_charCells _ _ _)

theorem get_writes_other {f : Field} (hu : UniqueKeys f.cells) (q : Vec) (hist : List (Vec × Int))
    (h : ∀ w ∈ hist, ¬ SamePoint w.1 q) : (f.writes hist).get q = f.get q := by
  induction hist generalizing f with
  | nil => rfl
  | cons w t ih =>
    have h1 : (f.put w.1 w.2).get q = f.get q := by
      rw [get_put hu, if_neg]
      rw [Vec.eqv_iff]; exact h w (by simp)
    exact (ih (unique_put hu _ _) (fun w hw => h w (List.mem_cons_of_mem _ hw))).trans h1

theorem get_writes_last {f : Field} (hu : UniqueKeys f.cells) (h1 h2 : List (Vec × Int)) (p q : Vec) (v : Int)
    (hpq : SamePoint p q) (h : ∀ w ∈ h2, ¬ SamePoint w.1 q) :
    (f.writes (h1 ++ (p, v) :: h2)).get q = f.cellOf v := by
  rw [writes_append]
  have hu1 : UniqueKeys (f.writes h1).cells := by
    clear h hpq
    induction h1 generalizing f with
    | nil => exact hu
    | cons w t ih => exact ih (unique_put hu _ _)
  show ((f.writes h1).put p v |>.writes h2).get q = _
  rw [get_writes_other (unique_put hu1 _ _) q h2 h, get_put hu1, if_pos ((Vec.eqv_iff _ _).mpr hpq)]
  unfold cellOf; rw [writes_charCells]

/-- **C08.** (64-bit cells) After any history of writes to any field of the program, the cell at `q` holds the value
of the last write to the point `q`, where points are compared by coordinates and values may be anything — also blank. -/
theorem C08_last_write_wins (f : Field) (hf : Reachable f) (hc : f.charCells = false)
    (before after : List (Vec × Int)) (p q : Vec) (v : Int) (hpq : SamePoint p q)
    (hlast : ∀ w ∈ after, ¬ SamePoint w.1 q) :
    (f.writes (before ++ (p, v) :: after)).get q = v := by
  rw [get_writes_last hf.unique before after p q v hpq hlast]; simp [cellOf, hc]

/-- **C08.** A write leaves every other point alone, whatever the history. -/
theorem C08_other_points_unchanged (f : Field) (hf : Reachable f) (hist : List (Vec × Int)) (q : Vec)
    (h : ∀ w ∈ hist, ¬ SamePoint w.1 q) : (f.writes hist).get q = f.get q :=
  get_writes_other hf.unique q hist h

/-- **C08.** A point never written reads as blank (32). -/
theorem C08_unwritten_is_blank (dims : Nat) (c : Bool) (hist : List (Vec × Int)) (q : Vec)
    (h : ∀ w ∈ hist, ¬ SamePoint w.1 q) : ((Field.new dims c).writes hist).get q = 32 := by
  rw [get_writes_other (Reachable.new dims c).unique q hist h]
  cases c <;> rfl

example : ((Field.new 2 false).writes
    [(Vec.ofList [3, -7], 65), (Vec.ofList [0, 1], 66), (Vec.ofList [3, -7, 0], -5),
     (Vec.ofList [1], 67), (Vec.ofList [0, 1], 32)]).get (Vec.ofList [3, -7]) = -5 := by decide

example : ∀ w ∈ [(Vec.ofList [1], (67 : Int)), (Vec.ofList [0, 1], 32)],
    ¬ SamePoint w.1 (Vec.ofList [3, -7]) := by
  intro w hw h
  have := h 0
  simp at hw
  rcases hw with rfl | rfl <;> revert this <;> decide

/-- **C09.** With one-byte cells, the cell holds the last value written reduced to a signed byte:
the unique value in `[-128, 127]` that is congruent to it modulo 256. -/
theorem C09_char_cells (f : Field) (hf : Reachable f) (hc : f.charCells = true)
    (before after : List (Vec × Int)) (p q : Vec) (v : Int) (hpq : SamePoint p q)
    (hlast : ∀ w ∈ after, ¬ SamePoint w.1 q) :
    ∃ x, (f.writes (before ++ (p, v) :: after)).get q = x ∧
      -128 ≤ x ∧ x ≤ 127 ∧ (256 : Int) ∣ (v - x) := by
  refine ⟨_, rfl, ?_⟩
  have hx : (f.writes (before ++ (p, v) :: after)).get q = v.bmod 256 := by
    rw [get_writes_last hf.unique before after p q v hpq hlast]; simp [cellOf, hc, toChar]
  rw [hx]
  refine ⟨?_, ?_, ?_⟩
  · have := Int.le_bmod (x := v) (m := 256) (by omega); omega
  · have := Int.bmod_lt (x := v) (m := 256) (by omega); omega
  · have := Int.bmod_eq_emod (x := v) (m := 256)
    rw [this]
    split <;> omega

/-- **C09.** A value that is already a signed byte is kept. -/
theorem C09_byte_unchanged (f : Field) (hf : Reachable f)
    (before after : List (Vec × Int)) (p q : Vec) (v : Int) (hpq : SamePoint p q)
    (hlast : ∀ w ∈ after, ¬ SamePoint w.1 q) (h1 : -128 ≤ v) (h2 : v ≤ 127) :
    (f.writes (before ++ (p, v) :: after)).get q = v := by
  cases hc : f.charCells
  · exact C08_last_write_wins f hf hc before after p q v hpq hlast
  · obtain ⟨x, h3, h4, h5, h6⟩ := C09_char_cells f hf hc before after p q v hpq hlast
    rw [h3]; omega

/-- **C09.** Every cell, written or not, is a signed byte. -/
theorem C09_all_cells_bytes (f : Field) (hc : f.charCells = true) (q : Vec) :
    -128 ≤ f.get q ∧ f.get q ≤ 127 := by
  unfold get
  rw [hc]
  simp only [if_true]
  unfold toChar
  constructor
  · refine Int.le_trans ?_ (Int.le_bmod (by omega)); omega
  · refine Int.le_of_lt_add_one (Int.lt_of_lt_of_le (Int.bmod_lt (by omega)) ?_); omega

example : ((Field.new 2 true).writes [(Vec.ofList [1, 1], 200)]).get (Vec.ofList [1, 1]) = -56 := by decide

/-! ## C10: bounds -/

/-- `q` lies in the box reported by `min`/`max`, on every axis. -/
def InBox (f : Field) (q : Vec) : Prop := ∀ i, f.min i ≤ q.get i ∧ q.get i ≤ f.max i

theorem min_eq (f : Field) (d : Nat) : f.min d = f.mins.getD d 0 := by
  unfold min; simp only [List.getD_eq_getElem?_getD]; split <;> simp [*]

theorem max_eq (f : Field) (d : Nat) : f.max d = f.maxs.getD d 0 := by
  unfold max; simp only [List.getD_eq_getElem?_getD]; split <;> simp [*]

theorem getD_pad (l : List Int) (n d : Nat) : (pad l n).getD d 0 = l.getD d 0 := by
  unfold pad
  simp only [List.getD_eq_getElem?_getD, List.getElem?_append, List.getElem?_replicate]
  split
  · rfl
  · have : l[d]? = none := by simp; omega
    rw [this]; split <;> rfl

theorem length_pad (l : List Int) (n : Nat) : n ≤ (pad l n).length := by
  unfold pad; simp; omega

theorem length_pad_eq (l : List Int) (n : Nat) : (pad l n).length = Nat.max l.length n := by
  unfold pad; rw [List.length_append, List.length_replicate]; show _ = Max.max _ _; omega

theorem getD_mapIdx (l : List Int) (g : Nat → Int → Int) (d : Nat) (hd : d < l.length) :
    (l.mapIdx g).getD d 0 = g d (l.getD d 0) := by
  simp [List.getD_eq_getElem?_getD, List.getElem?_eq_getElem hd]

theorem getD_mapIdx_pad (l : List Int) (g : Nat → Int → Int) (n d : Nat) (hg : ∀ m, ¬ d < n → g d m = m) :
    ((pad l n).mapIdx g).getD d 0 = g d (l.getD d 0) := by
  by_cases hd : d < (pad l n).length
  · rw [getD_mapIdx _ _ _ hd, getD_pad]
  · have h1 := length_pad l n
    have h2 : (((pad l n).mapIdx g)[d]?) = none := by simp; omega
    rw [hg _ (by omega), List.getD_eq_getElem?_getD, h2]
    rw [← getD_pad l n d, List.getD_eq_getElem?_getD]
    have : (pad l n)[d]? = none := by simp; omega
    rw [this]

/-- What one write does to the upper bound of axis `d`. -/
theorem max_put (f : Field) (p : Vec) (v : Int) (d : Nat) :
    (f.put p v).max d =
      if v = 32 then (if d < p.size ∧ f.max d = p.get d then scanMax (erase f.cells p) d else f.max d)
      else (if d < p.size ∧ f.max d < p.get d then p.get d else f.max d) := by
  rw [max_eq, max_eq]
  unfold put; simp only
  by_cases hv : v = 32
  · simp only [hv, if_true]
    rw [getD_mapIdx_pad]
    intro m h; simp [h]
  · simp only [hv, if_false]
    rw [getD_mapIdx_pad]
    intro m h; simp [h]

/-- What one write does to the lower bound of axis `d`. -/
theorem min_put (f : Field) (p : Vec) (v : Int) (d : Nat) :
    (f.put p v).min d =
      if v = 32 then (if d < p.size ∧ f.min d = p.get d then scanMin (erase f.cells p) d else f.min d)
      else (if d < p.size ∧ f.min d > p.get d then p.get d else f.min d) := by
  rw [min_eq, min_eq]
  unfold put; simp only
  by_cases hv : v = 32
  · simp only [hv, if_true]
    rw [getD_mapIdx_pad]
    intro m h; simp [h]
  · simp only [hv, if_false]
    rw [getD_mapIdx_pad]
    intro m h; simp [h]

theorem scanMax_ge {cells : List (Vec × Int)} {kv : Vec × Int} (h : kv ∈ cells) (i : Nat) :
    kv.1.get i ≤ scanMax cells i := by
  unfold scanMax
  have key : ∀ (l : List (Vec × Int)) (m : Int),
      m ≤ l.foldl (fun m kv => if kv.1.get i > m then kv.1.get i else m) m ∧
      ∀ kv ∈ l, kv.1.get i ≤ l.foldl (fun m kv => if kv.1.get i > m then kv.1.get i else m) m := by
    intro l
    induction l with
    | nil => intro m; simp
    | cons a t ih =>
      intro m
      simp only [List.foldl_cons]
      have := ih (if a.1.get i > m then a.1.get i else m)
      refine ⟨?_, ?_⟩
      · have h1 := this.1; split at h1 <;> split <;> omega
      · intro kv hkv
        rcases List.mem_cons.mp hkv with rfl | hkv
        · have h1 := this.1; split at h1 <;> split <;> omega
        · exact this.2 kv hkv
  exact (key cells i64Min).2 kv h

theorem scanMin_le {cells : List (Vec × Int)} {kv : Vec × Int} (h : kv ∈ cells) (i : Nat) :
    scanMin cells i ≤ kv.1.get i := by
  unfold scanMin
  have key : ∀ (l : List (Vec × Int)) (m : Int),
      l.foldl (fun m kv => if kv.1.get i < m then kv.1.get i else m) m ≤ m ∧
      ∀ kv ∈ l, l.foldl (fun m kv => if kv.1.get i < m then kv.1.get i else m) m ≤ kv.1.get i := by
    intro l
    induction l with
    | nil => intro m; simp
    | cons a t ih =>
      intro m
      simp only [List.foldl_cons]
      have := ih (if a.1.get i < m then a.1.get i else m)
      refine ⟨?_, ?_⟩
      · have h1 := this.1; split at h1 <;> split <;> omega
      · intro kv hkv
        rcases List.mem_cons.mp hkv with rfl | hkv
        · have h1 := this.1; split at h1 <;> split <;> omega
        · exact this.2 kv hkv
  exact (key cells i64Max).2 kv h

/-- Invariant: the box contains, on its explicit axes, every stored cell. -/
def ExplicitBounds (f : Field) : Prop :=
  ∀ kv ∈ f.cells, ∀ i, i < kv.1.size → f.min i ≤ kv.1.get i ∧ kv.1.get i ≤ f.max i

theorem explicit_put {f : Field} (h : ExplicitBounds f) (p : Vec) (v : Int) :
    ExplicitBounds (f.put p v) := by
  intro kv hkv i hi
  rw [put_cells] at hkv
  rw [max_put, min_put]
  by_cases hv : v = 32
  · simp only [hv, if_true] at hkv ⊢
    have h1 := h kv (mem_erase hkv) i hi
    have h2 := scanMax_ge hkv i
    have h3 := scanMin_le hkv i
    constructor <;> split <;> omega
  · simp only [hv, if_false] at hkv ⊢
    rcases mem_store hkv with he | ⟨kv', h1, h2⟩
    · rw [he] at hi ⊢
      constructor <;> split <;> omega
    · have h3 := h kv' h1 i (by rw [h2]; exact hi)
      rw [h2] at h3
      constructor <;> split <;> omega

theorem Reachable.explicit {f : Field} (h : Reachable f) : ExplicitBounds f := by
  induction h with
  | new => intro kv hkv; simp [Field.new] at hkv
  | put f p v _ ih => exact explicit_put ih p v
  | parse f start binary bytes _ ih =>
    exact parse_pred ExplicitBounds (fun f p v _ h => explicit_put h p v) (fun _ _ h => h)
      f start binary bytes ih

theorem find_some_mem {cells : List (Vec × Int)} {q : Vec} {x : Int} (h : find cells q = some x) :
    ∃ k, (k, x) ∈ cells ∧ SamePoint k q := by
  induction cells with
  | nil => simp [find] at h
  | cons kv t ih =>
    obtain ⟨k, y⟩ := kv
    simp only [find] at h
    split at h
    · rename_i hk
      simp at h; subst h
      exact ⟨k, by simp, (Vec.eqv_iff _ _).mp hk⟩
    · obtain ⟨k', h1, h2⟩ := ih h
      exact ⟨k', List.mem_cons_of_mem _ h1, h2⟩

theorem stored_of_nonblank {f : Field} {q : Vec} (h : f.get q ≠ 32) :
    ∃ kv ∈ f.cells, SamePoint kv.1 q := by
  unfold get at h
  cases hf : find f.cells q with
  | none => rw [hf] at h; exfalso; apply h; cases f.charCells <;> rfl
  | some x =>
    obtain ⟨k, h1, h2⟩ := find_some_mem hf
    exact ⟨_, h1, h2⟩

theorem get_of_size_le' (v : Vec) {i : Nat} (h : v.size ≤ i) : v.get i = 0 := Vec.get_of_size_le v h

/-- **C10 (part that holds always).** In every field the program can have — any mixture of loading, writing and
erasing — every non-blank cell lies between `min` and `max` on each axis where its coordinate is not zero. -/
theorem C10_nonzero_axes_in_bounds_partial (f : Field) (hf : Reachable f) (q : Vec) (hq : f.get q ≠ 32)
    (i : Nat) (hi : q.get i ≠ 0) : f.min i ≤ q.get i ∧ q.get i ≤ f.max i := by
  obtain ⟨kv, hkv, hsame⟩ := stored_of_nonblank hq
  have := hf.explicit kv hkv i (by
    by_cases h : i < kv.1.size
    · exact h
    · have := get_of_size_le' kv.1 (Nat.le_of_not_lt h)
      rw [hsame i] at this; exact absurd this hi)
  rw [hsame i] at this; exact this

/-- Fields made without ever writing a blank. -/
inductive ReachableNoErase : Field → Prop
  | new (dims : Nat) (c : Bool) : ReachableNoErase (Field.new dims c)
  | put (f : Field) (p : Vec) (v : Int) : v ≠ 32 → ReachableNoErase f → ReachableNoErase (f.put p v)
  | parse (f : Field) (start : Vec) (binary : Bool) (bytes : List Int) :
      ReachableNoErase f → ReachableNoErase (f.parse start binary bytes).2

theorem ReachableNoErase.reachable {f : Field} (h : ReachableNoErase f) : Reachable f := by
  induction h with
  | new d c => exact .new d c
  | put f p v _ _ ih => exact .put f p v ih
  | parse f s b l _ ih => exact .parse f s b l ih

theorem zero_in_put {f : Field} (h : ∀ i, f.min i ≤ 0 ∧ 0 ≤ f.max i) (p : Vec) (v : Int) (hv : v ≠ 32) :
    ∀ i, (f.put p v).min i ≤ 0 ∧ 0 ≤ (f.put p v).max i := by
  intro i
  have := h i
  rw [max_put, min_put]
  simp only [hv, if_false]
  constructor <;> split <;> omega

theorem ReachableNoErase.zero {f : Field} (h : ReachableNoErase f) :
    ∀ i, f.min i ≤ 0 ∧ 0 ≤ f.max i := by
  induction h with
  | new d c => intro i; rw [min_eq, max_eq]; simp [Field.new]
  | put f p v hv _ ih => exact zero_in_put ih p v hv
  | parse f s b l _ ih =>
    exact parse_pred (fun f => ∀ i, f.min i ≤ 0 ∧ 0 ≤ f.max i) (fun f p v hv h => zero_in_put h p v hv)
      (fun _ _ h => h) f s b l ih

/-- **C10 (no blanks written).** As long as no blank is written, every non-blank cell is in the box. -/
theorem C10_in_box_without_erasure_partial (f : Field) (hf : ReachableNoErase f) (q : Vec)
    (hq : f.get q ≠ 32) : InBox f q := by
  intro i
  by_cases hi : q.get i = 0
  · rw [hi]; exact hf.zero i
  · exact C10_nonzero_axes_in_bounds_partial f hf.reachable q hq i hi

/-- The history of the counterexample: `(0,-1)` and `(0,5)` are written, `(0,-1)` is blanked,
`(2,0)` is written. -/
def c10Witness : Field := (Field.new 2 false).writes
  [(Vec.ofList [0, -1], 65), (Vec.ofList [0, 5], 65), (Vec.ofList [0, -1], 32), (Vec.ofList [2, 0], 65)]

/-- **C10 fails in general**: after a blank is written on the border, a non-blank cell can lie outside the
box (here `(2,0)` with `min(1) = 5`). -/
theorem C10_false_with_erasure :
    ∃ f, Reachable f ∧ ∃ q, f.get q ≠ 32 ∧ ¬ InBox f q :=
  ⟨c10Witness, (Reachable.new 2 false).writes _, Vec.ofList [2, 0], by decide, fun h => by
    have := h 1; revert this; decide⟩

example : ReachableNoErase (((Field.new 2 false).put (Vec.ofList [3, -4]) 65).parse (Vec.ofList [0]) false
    [97, 10, 32, 98]).2 := .parse _ _ _ _ (.put _ _ _ (by decide) (.new 2 false))

example : (((Field.new 2 false).put (Vec.ofList [3, -4]) 65).parse (Vec.ofList [0]) false
    [97, 10, 32, 98]).2.get (Vec.ofList [1, 1]) ≠ 32 := by decide

end Field
end Funge
