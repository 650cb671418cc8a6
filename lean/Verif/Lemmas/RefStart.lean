import Verif.Lemmas.RefStep
import Verif.Props.C11_Loader
/-!
The interpreter and the reference machine at the start of a program.
-/
namespace Funge
open Exec Field Ref

theorem furthest_spec (l : List Int) : 0 ≤ Bef.furthest l ∧ (∀ v ∈ l, v ≤ Bef.furthest l) ∧ (Bef.furthest l = 0 ∨ Bef.furthest l ∈ l) := by
  have h : ∀ (l : List Int) (m : Int), m ≤ l.foldl max m ∧ (∀ v ∈ l, v ≤ l.foldl max m) ∧ (l.foldl max m = m ∨ l.foldl max m ∈ l) := by
    intro l
    induction l with
    | nil => exact fun m => ⟨Int.le_refl m, by simp, .inl rfl⟩
    | cons a t ih =>
      intro m
      obtain ⟨h1, h2, h3⟩ := ih (max m a)
      show _ ≤ t.foldl max (max m a) ∧ (∀ v ∈ a :: t, v ≤ t.foldl max (max m a)) ∧ (t.foldl max (max m a) = m ∨ t.foldl max (max m a) ∈ a :: t)
      refine ⟨by omega, fun v hv => ?_, ?_⟩
      · rcases List.mem_cons.mp hv with rfl | hv
        · omega
        · exact h2 v hv
      · rcases h3 with h3 | h3
        · rw [h3]
          by_cases h : a ≤ m
          · exact .inl (by omega)
          · exact .inr (by rw [show max m a = a by omega]; exact List.mem_cons_self)
        · exact .inr (List.mem_cons_of_mem _ h3)
  exact h l 0

theorem cell2_some {lines : List (List Int)} {x y c : Int} : Spec.cell2 lines x y = some c ↔
    0 ≤ x ∧ 0 ≤ y ∧ ∃ l, lines[y.toNat]? = some l ∧ l[x.toNat]? = some c := by
  unfold Spec.cell2 Spec.at'
  by_cases hy : 0 ≤ y
  · rw [if_pos hy]
    cases hl : lines[y.toNat]? with
    | none => simp
    | some l =>
      simp only [Option.bind_some]
      by_cases hx : 0 ≤ x
      · rw [if_pos hx]; simp [hx, hy]
      · rw [if_neg hx]; simp [hx]
  · rw [if_neg hy]; simp [hy]

theorem mem_columns {lines : List (List Int)} {v : Int} :
    v ∈ (lines.flatMap fun l => (l.zipIdx.filter (·.1 ≠ 32)).map fun p => ((p.2 : Nat) : Int)) ↔ ∃ y c, Spec.cell2 lines v y = some c ∧ c ≠ 32 := by
  simp only [List.mem_flatMap, List.mem_map, List.mem_filter, Prod.exists, List.mem_zipIdx_iff_getElem?, cell2_some]
  constructor
  · rintro ⟨l, hl, c, i, ⟨h1, h2⟩, rfl⟩
    obtain ⟨y, hy⟩ := List.mem_iff_getElem?.mp hl
    exact ⟨y, c, ⟨by omega, by omega, l, by simpa using hy, by simpa using h1⟩, by simpa using h2⟩
  · rintro ⟨y, c, ⟨h1, h2, l, h3, h4⟩, h5⟩
    exact ⟨l, List.mem_of_getElem? h3, c, v.toNat, ⟨by simpa using h4, by simpa using h5⟩, by omega⟩

theorem mem_rows {lines : List (List Int)} {v : Int} :
    v ∈ ((lines.zipIdx.filter (·.1.any (· ≠ 32))).map fun p => ((p.2 : Nat) : Int)) ↔ ∃ x c, Spec.cell2 lines x v = some c ∧ c ≠ 32 := by
  simp only [List.mem_map, List.mem_filter, Prod.exists, List.mem_zipIdx_iff_getElem?, cell2_some]
  constructor
  · rintro ⟨l, i, ⟨h1, h2⟩, rfl⟩
    obtain ⟨c, hc, h3⟩ := List.any_eq_true.mp h2
    obtain ⟨x, hx⟩ := List.mem_iff_getElem?.mp hc
    exact ⟨x, c, ⟨by omega, by omega, l, by simpa using h1, by simpa using hx⟩, by simpa using h3⟩
  · rintro ⟨x, c, ⟨h1, h2, l, h3, h4⟩, h5⟩
    exact ⟨l, v.toNat, ⟨by simpa using h3, List.any_eq_true.mpr ⟨c, List.mem_of_getElem? h4, by simpa using h5⟩⟩, by omega⟩

/-- Every stored cell counts, and the bounds are those of the stored cells and of the origin. -/
structure Tight (F : Field) : Prop where
  uniq : UniqueKeys F.cells
  full : ∀ kv ∈ F.cells, F.get kv.1 ≠ 32
  max : ∀ d, F.max d = 0 ∨ ∃ q, F.get q ≠ 32 ∧ q.get d = F.max d
  min : ∀ d, F.min d = 0 ∨ ∃ q, F.get q ≠ 32 ∧ q.get d = F.min d

theorem byte_blank {v : Int} (h1 : 0 ≤ v) (h2 : v ≤ 255) (h : v.bmod 256 = 32) : v = 32 := by
  unfold Int.bmod at h
  simp only at h
  split at h <;> omega

theorem Tight.put {F : Field} (h : Tight F) (p : Vec) {v : Int} (h1 : v ≠ 32) (h2 : 0 ≤ v ∧ v ≤ 255) : Tight (F.put p v) := by
  have hc : F.cellOf v ≠ 32 := by
    unfold cellOf
    split
    · intro h
      have : v.bmod 256 = 32 := h
      exact h1 (byte_blank h2.1 h2.2 this)
    · exact h1
  have hget : ∀ q, F.get q ≠ 32 → (F.put p v).get q ≠ 32 := fun q hq => by
    rw [get_put h.uniq]
    split
    · exact hc
    · exact hq
  have hp : (F.put p v).get p ≠ 32 := by
    rw [get_put h.uniq, if_pos (Vec.eqv_refl p)]; exact hc
  refine ⟨unique_put h.uniq p v, fun kv hkv => ?_, fun d => ?_, fun d => ?_⟩
  · rw [put_cells, if_neg h1] at hkv
    rcases mem_store hkv with he | ⟨kv', h3, h4⟩
    · rw [get_congr _ (q := p) (by rw [he]; exact Vec.eqv_refl p)]; exact hp
    · rw [← h4]; exact hget _ (h.full kv' h3)
  · rw [max_put, if_neg h1]
    split
    · exact .inr ⟨p, hp, rfl⟩
    · rcases h.max d with e | ⟨q, e1, e2⟩
      · exact .inl e
      · exact .inr ⟨q, hget q e1, e2⟩
  · rw [min_put, if_neg h1]
    split
    · exact .inr ⟨p, hp, rfl⟩
    · rcases h.min d with e | ⟨q, e1, e2⟩
      · exact .inl e
      · exact .inr ⟨q, hget q e1, e2⟩

theorem mem_planeText {lines : List (List Int)} {c : Int} (h : c ∈ Spec.planeText lines) : c = 10 ∨ ∃ l ∈ lines, c ∈ l := by
  unfold Spec.planeText at h
  induction lines with
  | nil => cases h
  | cons a t ih =>
    cases t with
    | nil => exact .inr ⟨a, List.mem_cons_self, h⟩
    | cons b t =>
      simp only [Spec.joinWith, List.mem_append, List.mem_singleton] at h
      rcases h with (h | h) | h
      · exact .inr ⟨a, List.mem_cons_self, h⟩
      · exact .inl h
      · rcases ih h with h | ⟨l, h1, h2⟩
        · exact .inl h
        · exact .inr ⟨l, List.mem_cons_of_mem _ h1, h2⟩

theorem load_tight (R : Rules) {lines : List (List Int)} (hl : ∀ l ∈ lines, ∀ c ∈ l, 0 ≤ c ∧ c ≤ 255 ∧ Spec.Plain c) : Tight (Field.load 2 R.byte (Spec.planeText lines)) := by
  have e : Field.load 2 R.byte (Spec.planeText lines) = ((Field.new 2 R.byte).parse (Vec.ofList [0]) false (Spec.planeText lines)).2 := rfl
  rw [e]
  refine parse_pred' Tight (fun _ => True) (fun v => 0 ≤ v ∧ v ≤ 255) (fun f p v h1 h2 _ h => h.put p h1 h2) (fun f n h => ⟨h.uniq, h.full, h.max, h.min⟩) (fun _ _ _ _ => trivial) _ _ _ _ ?_ trivial ?_
  · intro c hc
    rcases mem_planeText hc with rfl | ⟨l, h1, h2⟩
    · decide
    · have := hl l h1 c h2; omega
  · exact ⟨List.Pairwise.nil, by simp [Field.new], fun d => .inl (by rw [max_eq]; simp [Field.new]), fun d => .inl (by rw [min_eq]; simp [Field.new])⟩

theorem load_cc (R : Rules) (lines : List (List Int)) : (Field.load 2 R.byte (Spec.planeText lines)).charCells = R.byte :=
  parse_pred (fun f => f.charCells = R.byte) (fun f p v _ h => by rw [put_charCells]; exact h) (fun f n h => h) _ _ _ _ rfl

theorem load_get (R : Rules) {lines : List (List Int)} (hl : ∀ l ∈ lines, ∀ c ∈ l, 0 ≤ c ∧ c ≤ 255 ∧ Spec.Plain c) (hne : lines ≠ []) (inp : List Int) (x y : Int) :
    (Field.load 2 R.byte (Spec.planeText lines)).get (Vec.ofList [x, y]) = (Bef.start R lines inp).cell x y := by
  have e : Field.load 2 R.byte (Spec.planeText lines) = ((Field.new 2 R.byte).parse (Vec.ofList [0]) false (Spec.planeText lines)).2 := rfl
  have hlay := C11_text_layout (Field.new 2 R.byte) (.new 2 R.byte) (Vec.ofList [0]) lines hne fun l h c hc => (hl l h c hc).2.2
  have h0 : ∀ d, (Vec.ofList [0]).get d = 0 := fun d => by rw [Vec.get_ofList]; cases d <;> rfl
  have hblank : ∀ q, (Field.new 2 R.byte).get q = 32 := fun q => by
    cases R.byte <;> rfl
  obtain ⟨h1, h2⟩ := hlay (Vec.ofList [x, y])
  rw [h0, h0, Int.sub_zero, Int.sub_zero, get2_0, get2_1, ← e] at h1 h2
  show _ = ((Spec.cell2 lines x y).map fun c => if R.byte then c.bmod 256 else c).getD 32
  cases hc : Spec.cell2 lines x y with
  | none => exact (h2 (.inr (.inl hc))).trans (hblank _)
  | some c =>
    by_cases h32 : c = 32
    · rw [h2 (.inr (.inr (by rw [hc, h32]))), hblank, h32]; cases R.byte <;> rfl
    · rw [h1 (fun d hd => by rw [get2_more _ _ hd, h0]) c hc h32]; rfl

theorem shown_start (R : Rules) (hflat : R.torus = false) {lines : List (List Int)} (hne : lines ≠ []) (hl : ∀ l ∈ lines, ∀ c ∈ l, 0 ≤ c ∧ c ≤ 255 ∧ Spec.Plain c) (inp : List Int) :
    Shown R (Field.load 2 R.byte (Spec.planeText lines)) (Bef.start R lines inp) := by
  have e : Field.load 2 R.byte (Spec.planeText lines) = ((Field.new 2 R.byte).parse (Vec.ofList [0]) false (Spec.planeText lines)).2 := rfl
  have hr : ReachableNoErase (Field.load 2 R.byte (Spec.planeText lines)) := .parse _ _ _ _ (.new 2 R.byte)
  have ht : Tight (Field.load 2 R.byte (Spec.planeText lines)) := load_tight R hl
  have hlay := C11_text_layout (Field.new 2 R.byte) (.new 2 R.byte) (Vec.ofList [0]) lines hne fun l h c hc => (hl l h c hc).2.2
  have h0 : ∀ d, (Vec.ofList [0]).get d = 0 := fun d => by rw [Vec.get_ofList]; cases d <;> rfl
  have hcell : ∀ {x y c : Int}, Spec.cell2 lines x y = some c → 0 ≤ c ∧ c ≤ 255 := by
    intro x y c h
    obtain ⟨-, -, l, h3, h4⟩ := cell2_some.mp h
    have := hl l (List.mem_of_getElem? h3) c (List.mem_of_getElem? h4)
    omega
  have hblank : ∀ q, (Field.new 2 R.byte).get q = 32 := fun q => by
    cases R.byte <;> rfl
  -- cells that are not blank are in the text
  have hin : ∀ q, (Field.load 2 R.byte (Spec.planeText lines)).get q ≠ 32 → ∃ c, Spec.cell2 lines (q.get 0) (q.get 1) = some c ∧ c ≠ 32 := by
    intro q hq
    have h2 := (hlay q).2
    rw [h0, h0, Int.sub_zero, Int.sub_zero, ← e] at h2
    cases hc : Spec.cell2 lines (q.get 0) (q.get 1) with
    | none => exact absurd ((h2 (.inr (.inl hc))).trans (hblank q)) hq
    | some c =>
      refine ⟨c, rfl, fun h32 => hq ((h2 (.inr (.inr (by rw [hc, h32])))).trans (hblank q))⟩
  have hget : ∀ x y, (Field.load 2 R.byte (Spec.planeText lines)).get (Vec.ofList [x, y]) = (Bef.start R lines inp).cell x y := by
    exact load_get R hl hne inp
  have hout : ∀ {x y c : Int}, Spec.cell2 lines x y = some c → c ≠ 32 → InBox (Field.load 2 R.byte (Spec.planeText lines)) (Vec.ofList [x, y]) := by
    intro x y c hc h32
    refine C10_in_box_without_erasure_partial _ hr _ ?_
    rw [hget]
    show ((Spec.cell2 lines x y).map fun c => if R.byte then c.bmod 256 else c).getD 32 ≠ 32
    rw [hc]
    have := hcell hc
    show (if R.byte then c.bmod 256 else c) ≠ 32
    split
    · exact fun h => h32 (byte_blank this.1 this.2 h)
    · exact h32
  obtain ⟨e1, e2, e3⟩ := furthest_spec (lines.flatMap fun l => (l.zipIdx.filter (·.1 ≠ 32)).map fun p => ((p.2 : Nat) : Int))
  obtain ⟨s1, s2, s3⟩ := furthest_spec ((lines.zipIdx.filter (·.1.any (· ≠ 32))).map fun p => ((p.2 : Nat) : Int))
  have he : (Field.load 2 R.byte (Spec.planeText lines)).max 0 = Bef.lastColumn lines := by
    refine Int.le_antisymm ?_ ?_
    · rcases ht.max 0 with h | ⟨q, h1, h2⟩
      · rw [h]; exact e1
      · obtain ⟨c, h3, h4⟩ := hin q h1
        rw [← h2]
        exact e2 _ (mem_columns.mpr ⟨_, c, h3, h4⟩)
    · rcases e3 with h | h
      · show Bef.furthest _ ≤ _
        rw [h]; exact (hr.zero 0).2
      · obtain ⟨y, c, h1, h2⟩ := mem_columns.mp h
        have := (hout h1 h2 0).2
        rw [get2_0] at this; exact this
  have hs : (Field.load 2 R.byte (Spec.planeText lines)).max 1 = Bef.lastRow lines := by
    refine Int.le_antisymm ?_ ?_
    · rcases ht.max 1 with h | ⟨q, h1, h2⟩
      · rw [h]; exact s1
      · obtain ⟨c, h3, h4⟩ := hin q h1
        rw [← h2]
        exact s2 _ (mem_rows.mpr ⟨_, c, h3, h4⟩)
    · rcases s3 with h | h
      · show Bef.furthest _ ≤ _
        rw [h]; exact (hr.zero 1).2
      · obtain ⟨y, c, h1, h2⟩ := mem_rows.mp h
        have := (hout h1 h2 1).2
        rw [get2_1] at this; exact this
  have hmin : ∀ d, d < 2 → (Field.load 2 R.byte (Spec.planeText lines)).min d = 0 := by
    intro d hd
    rcases ht.min d with h | ⟨q, h1, h2⟩
    · exact h
    · obtain ⟨c, h3, h4⟩ := hin q h1
      obtain ⟨h5, h6, -⟩ := cell2_some.mp h3
      have := (hr.zero d).1
      match d, hd with
      | 0, _ => omega
      | 1, _ => omega
  have he' : (Bef.start R lines inp).east = Bef.lastColumn lines := by
    show (if R.torus then _ else _) = _
    rw [hflat, if_neg (by decide)]
  have hs' : (Bef.start R lines inp).south = Bef.lastRow lines := by
    show (if R.torus then _ else _) = _
    rw [hflat, if_neg (by decide)]
  refine ⟨ht.uniq, load_cc R lines, hget, hmin 0 (by decide), he.trans he'.symm, hmin 1 (by decide), hs.trans hs'.symm, fun kv hkv => ?_, ?_, hflat⟩
  · rw [he', hs']
    have hb := C10_in_box_without_erasure_partial _ hr _ (ht.full kv hkv)
    have b0 := hb 0; have b1 := hb 1
    rw [hmin 0 (by decide), he] at b0
    rw [hmin 1 (by decide), hs] at b1
    exact ⟨b0.1, b0.2, b1.1, b1.2⟩
  · rw [he', hs']
    exact ⟨Int.le_refl 0, e1, Int.le_refl 0, s1⟩

/-- On a torus the program has to be within it. -/
theorem ring_start (R : Rules) (hround : R.torus = true) {lines : List (List Int)} (hne : lines ≠ []) (hl : ∀ l ∈ lines, ∀ c ∈ l, 0 ≤ c ∧ c ≤ 255 ∧ Spec.Plain c)
    (hfit : lines.length ≤ 25 ∧ ∀ l ∈ lines, l.length ≤ 80) (inp : List Int) : Ring R (Field.load 2 R.byte (Spec.planeText lines)) (Bef.start R lines inp) := by
  have he : (Bef.start R lines inp).east = 79 := by
    show (if R.torus then _ else _) = _
    rw [hround, if_pos rfl]
  have hs : (Bef.start R lines inp).south = 24 := by
    show (if R.torus then _ else _) = _
    rw [hround, if_pos rfl]
  refine ⟨(load_tight R hl).uniq, load_cc R lines, load_get R hl hne inp, hround, ⟨rfl, he, rfl, hs⟩, fun x y h => ?_⟩
  show ((Spec.cell2 lines x y).map fun c => if R.byte then c.bmod 256 else c).getD 32 = 32
  cases hc : Spec.cell2 lines x y with
  | none => rfl
  | some c =>
    obtain ⟨h1, h2, l, h3, h4⟩ := cell2_some.mp hc
    have h5 := hfit.2 l (List.mem_of_getElem? h3)
    have h6 := (List.getElem?_eq_some_iff.mp h3).1
    have h7 := (List.getElem?_eq_some_iff.mp h4).1
    have h8 := hfit.1
    have : (Bef.start R lines inp).has (x, y) = true := by
      unfold Bef.has
      rw [he, hs]
      simp only [Bool.and_eq_true, decide_eq_true_eq]
      exact ⟨⟨⟨h1, by omega⟩, h2⟩, by omega⟩
    rw [this] at h; cases h

theorem plane_start (R : Rules) {lines : List (List Int)} (hne : lines ≠ []) (hl : ∀ l ∈ lines, ∀ c ∈ l, 0 ≤ c ∧ c ≤ 255 ∧ Spec.Plain c)
    (hfit : R.torus = true → lines.length ≤ 25 ∧ ∀ l ∈ lines, l.length ≤ 80) (inp : List Int) : Plane R (Field.load 2 R.byte (Spec.planeText lines)) (Bef.start R lines inp) := by
  cases h : R.torus with
  | false => exact .inl (shown_start R h hne hl inp)
  | true => exact .inr (ring_start R h hne hl (hfit h) inp)

/-- The interpreter's state at the start. -/
theorem launch_bef {g : Glob} {std : Int} {f : Nat} (h1 : g.cfg.dims = 2) (h2 : g.cfg.standard = std) (h3 : g.cfg.mode = 0) (h4 : g.cfg.fingerprints = []) (h5 : g.fuel = f)
    (hs : std = 93 ∨ std = 98) (R : Rules) (lines : List (List Int)) (text : List Int) :
    launch g R.byte text = (befAt g std f ⟨g.nextId, none, [], g.nextId + 1⟩ g.asked (Field.load 2 R.byte text) 0 [] [] (Bef.start R lines g.inp)).alone := by
  have e := launch_eq (g := { g with cfg := { g.cfg with topo := .lahey } }) f ⟨h1, h2, rfl, h3, h4, h5⟩ hs R.byte text
  unfold launch at e ⊢
  unfold befAt St.alone at *
  obtain ⟨e1, e2⟩ := Univ.mk.inj e
  congr 1
  · refine Eq.trans ?_ (e1.trans ?_)
    · rfl
    · rcases hs with rfl | rfl <;> krfl
  · rw [List.map_nil, List.append_nil]
    have hc : g.cfg = { g.cfg with dims := 2, standard := std, mode := 0, fingerprints := [] } := by
      rw [← h1, ← h2, ← h3, ← h4]
    rw [← hc, h1, ← h5]
    krfl

end Funge
