import Verif.Lemmas.VecRange
/-!
C07: a vector range visits each cell of the box exactly once.
-/
namespace Funge.VecRange

/-- Specification: `v` lies in the box spanned by the corners `a` and `b` (all coordinates, either direction). -/
def InBox (a b v : Vec) : Prop :=
  ∀ i, (a.get i ≤ v.get i ∧ v.get i ≤ b.get i) ∨ (b.get i ≤ v.get i ∧ v.get i ≤ a.get i)

/-- `e` is the end marker of the range from `b` to `last`. -/
structure IsEnd (b last e : Vec) : Prop where
  zero : e.get 0 = last.get 0 + unit (b.get 0) (last.get 0)
  rest : ∀ i, 0 < i → e.get i = last.get i

theorem new_isEnd (b last : Vec) : IsEnd b last (new b last).vend := by
  constructor
  · simp only [new, unit]; split <;> simp <;> omega
  · intro i hi
    simp only [new]; split <;> simp [Vec.get_set, show i ≠ 0 by omega]

/-- From a cell of the box other than the last: the loop, having already exhausted and reset the axes
below `i`, resets more exhausted axes and advances the first one that is not exhausted. -/
theorem stepLoop_mid {b last e : Vec} (he : IsEnd b last e) (m : Nat) :
    ∀ (i : Nat) (cur : Vec), (∀ j, i ≤ j → Btw (b.get j) (last.get j) (cur.get j)) →
      (∀ j, j < i → cur.get j = b.get j) →
      (∃ k, i ≤ k ∧ k < i + m ∧ cur.get k ≠ last.get k) →
      ∃ k, i ≤ k ∧ k < i + m ∧ cur.get k ≠ last.get k ∧ (∀ j, i ≤ j → j < k → cur.get j = last.get j) ∧
        ∀ j, (stepLoop b last e m i cur).get j =
          if j < k then b.get j else if j = k then cur.get k + unit (b.get k) (last.get k) else cur.get j := by
  induction m with
  | zero => intro i cur _ _ ⟨k, h1, h2, _⟩; omega
  | succ m ih =>
    intro i cur hbox hres ⟨k, hk1, hk2, hk3⟩
    have hdir : (if e.get i ≥ b.get i then cur.get i + 1 else cur.get i - 1) =
        cur.get i + unit (b.get i) (last.get i) := by
      unfold unit
      by_cases h0 : i = 0
      · subst h0; rw [he.zero]; unfold unit
        split <;> split <;> first | omega | (split at * <;> omega)
      · rw [he.rest i (by omega)]; split <;> omega
    simp only [stepLoop, hdir]
    by_cases hi : cur.get i = last.get i
    · -- axis i exhausted
      have hki : k ≠ i := by rintro rfl; exact hk3 hi
      have hnend : (cur.set i (cur.get i + unit (b.get i) (last.get i))).eqv e = false := by
        rcases hb : (cur.set i (cur.get i + unit (b.get i) (last.get i))).eqv e with _ | _
        · rfl
        · exfalso
          rw [Vec.eqv_iff] at hb
          have := hb k
          rw [Vec.get_set, if_neg hki, he.rest k (by omega)] at this
          exact hk3 this
      have hout : (if last.get i ≥ b.get i then decide (cur.get i + unit (b.get i) (last.get i) > last.get i)
          else decide (cur.get i + unit (b.get i) (last.get i) < last.get i)) = true := by
        unfold unit; rw [hi]; split <;> simp <;> omega
      obtain ⟨k', h1, h2, h3, h4, h5⟩ := ih (i + 1)
        ((cur.set i (cur.get i + unit (b.get i) (last.get i))).set i (b.get i))
        (by intro j hj; simp only [Vec.get_set, show j ≠ i by omega, if_false]; exact hbox j (by omega))
        (by
          intro j hj
          by_cases hji : j = i
          · subst hji; simp
          · simp only [Vec.get_set, hji, if_false]; exact hres j (by omega))
        ⟨k, by omega, by omega, by simp only [Vec.get_set, hki, if_false]; exact hk3⟩
      have hk'i : k' ≠ i := by omega
      simp only [Vec.get_set, hk'i, if_false] at h3 h5
      refine ⟨k', by omega, by omega, h3, ?_, ?_⟩
      · intro j hj1 hj2
        by_cases hji : j = i
        · subst hji; exact hi
        · have := h4 j (by omega) hj2
          simpa only [Vec.get_set, hji, if_false] using this
      · intro j
        have hgoal := h5 j
        rw [hnend]
        simp only [Bool.false_eq_true, if_false]
        have hrhs : (if j < k' then b.get j else if j = k' then cur.get k' + unit (b.get k') (last.get k')
            else if j = i then b.get i else if j = i then cur.get i + unit (b.get i) (last.get i) else cur.get j) =
            if j < k' then b.get j else if j = k' then cur.get k' + unit (b.get k') (last.get k') else cur.get j := by
          by_cases hjk : j < k'
          · simp [hjk]
          · have : j ≠ i := by omega
            simp [hjk, this]
        by_cases hd : last.get i ≥ b.get i
        · rw [if_pos hd] at hout ⊢
          rw [if_pos (by simpa using hout)]
          rw [hgoal, hrhs]
        · rw [if_neg hd] at hout ⊢
          rw [if_pos (by simpa using hout)]
          rw [hgoal, hrhs]
    · -- axis i advances
      have hb := hbox i (by omega)
      refine ⟨i, by omega, by omega, hi, by intro j h1 h2; omega, ?_⟩
      have hnot : ¬ (if last.get i ≥ b.get i then cur.get i + unit (b.get i) (last.get i) > last.get i
          else cur.get i + unit (b.get i) (last.get i) < last.get i) := by
        unfold unit Btw at *; split <;> omega
      have hval : ∀ j, (cur.set i (cur.get i + unit (b.get i) (last.get i))).get j =
          if j < i then b.get j else if j = i then cur.get i + unit (b.get i) (last.get i) else cur.get j := by
        intro j
        rw [Vec.get_set]
        by_cases hji : j = i
        · subst hji; simp
        · by_cases hlt : j < i
          · simp [hji, hlt, hres j hlt]
          · simp [hji, hlt]
      intro j
      split
      · exact hval j
      · split
        · rename_i hd
          rw [if_pos hd] at hnot
          rw [if_neg hnot]; exact hval j
        · rename_i hd
          rw [if_neg hd] at hnot
          rw [if_neg hnot]; exact hval j

/-- From the last cell of the box, one step reaches the end marker. -/
theorem stepLoop_last {b last e : Vec} (he : IsEnd b last e) (m : Nat) (cur : Vec)
    (h : ∀ j, cur.get j = last.get j) : ∀ j, (stepLoop b last e (m + 1) 0 cur).get j = e.get j := by
  have hdir : (if e.get 0 ≥ b.get 0 then cur.get 0 + 1 else cur.get 0 - 1) =
      last.get 0 + unit (b.get 0) (last.get 0) := by
    rw [he.zero, h 0]; unfold unit
    split <;> split <;> first | omega | (split at * <;> omega)
  have hval : ∀ j, (cur.set 0 (last.get 0 + unit (b.get 0) (last.get 0))).get j = e.get j := by
    intro j
    rw [Vec.get_set]
    by_cases hj : j = 0
    · subst hj; simp [he.zero]
    · rw [if_neg hj, he.rest j (by omega), h]
  intro j
  simp only [stepLoop, hdir]
  rw [if_pos ((Vec.eqv_iff _ _).mpr hval)]
  exact hval j

/-- The loop over a range visits the cells of the box in the order of their ranks; `m + 1` axes are enough. -/
theorem visit_ranks (a b : Vec) :
    ∃ (l : List Vec) (m : Nat), (∀ i, m + 1 ≤ i → a.get i = 0 ∧ b.get i = 0) ∧
      (∀ fuel, weight a.get b.get (m + 1) + 1 ≤ fuel → visit fuel (new a b) = some l) ∧
      l.map (fun v => rank a.get b.get v.get (m + 1)) = List.range' 0 (weight a.get b.get (m + 1)) ∧
      (∀ u ∈ l, InBox a b u) := by
  -- number of axes handled by the loop
  have he := new_isEnd a b
  generalize hE : (new a b).vend = e at he
  have hlen : ∀ i, max a.size e.size ≤ i → a.get i = 0 ∧ b.get i = 0 ∨ i = 0 := by
    intro i hi
    by_cases h0 : i = 0
    · exact Or.inr h0
    · left; exact ⟨Vec.get_of_size_le a (by omega), by rw [← he.rest i (by omega)]; exact Vec.get_of_size_le e (by omega)⟩
  obtain ⟨m, hm⟩ : ∃ m, max a.size e.size = m + 1 := by
    have : 0 < e.size := by
      rw [← hE]; simp only [new]; split <;> exact Vec.size_set_pos _ _ _
    exact ⟨max a.size e.size - 1, by omega⟩
  have hz : ∀ i, m + 1 ≤ i → a.get i = 0 ∧ b.get i = 0 := by
    intro i hi
    rcases hlen i (by omega) with h | h
    · exact h
    · omega
  let n := m + 1
  let R : Vec → Nat := fun v => rank a.get b.get v.get n
  let W := weight a.get b.get n
  -- every cell of the box is followed by the cell of next rank, the last one by the end marker
  have key : ∀ d (cur : Vec), InBox a b cur → R cur + d + 1 = W →
      ∃ l : List Vec, (∀ fuel, d + 2 ≤ fuel → visit fuel { vbegin := a, vlast := b, vend := e, current := cur } = some l) ∧
        l.map R = List.range' (R cur) (d + 1) ∧ ∀ u ∈ l, InBox a b u := by
    intro d
    induction d with
    | zero =>
      intro cur hbox hR
      have hcl : ∀ i, i < n → cur.get i = b.get i := by
        apply rank_inj n (fun i _ => hbox i) (fun i _ => by unfold Btw; omega)
        have := rank_last (a := a.get) (b := b.get) (c := b.get) n (fun i _ => rfl)
        show R cur = _
        omega
      have hcl' : ∀ i, cur.get i = b.get i := by
        intro i
        by_cases hi : i < n
        · exact hcl i hi
        · have := hz i (by omega); have := hbox i; omega
      have hne : cur.eqv e = false := by
        rcases hb : cur.eqv e with _ | _
        · rfl
        · exfalso
          have := (Vec.eqv_iff _ _).mp hb 0
          rw [he.zero, hcl' 0] at this; unfold unit at this; split at this <;> omega
      have hstep : (stepLoop a b e (m + 1) 0 cur).eqv e = true := by
        rw [Vec.eqv_iff]; exact stepLoop_last he m cur hcl'
      refine ⟨[cur], ?_, by simp, by simpa using hbox⟩
      intro fuel hf
      obtain ⟨f, rfl⟩ : ∃ f, fuel = f + 2 := ⟨fuel - 2, by omega⟩
      simp [visit, hne, step, hm, hstep]
    | succ d ih =>
      intro cur hbox hR
      have hnl : ∃ k, 0 ≤ k ∧ k < 0 + n ∧ cur.get k ≠ b.get k := by
        apply Classical.byContradiction
        intro hcon
        have hcl : ∀ i, i < n → cur.get i = b.get i := by
          intro i hi
          apply Classical.byContradiction
          intro h; exact hcon ⟨i, by omega, by omega, h⟩
        have := rank_last (a := a.get) (b := b.get) (c := cur.get) n hcl
        have : R cur + 1 = W := this
        omega
      obtain ⟨k, h1, h2, h3, h4, h5⟩ := stepLoop_mid he n 0 cur (fun j _ => hbox j) (by intro j hj; omega) hnl
      have hbk := hbox k
      have hbox' : InBox a b (stepLoop a b e n 0 cur) := by
        intro j
        rw [h5 j]
        split
        · omega
        · split
          · rename_i hjk; subst hjk; unfold unit; split <;> omega
          · exact hbox j
      have hrank : R (stepLoop a b e n 0 cur) = R cur + 1 := by
        apply rank_succ n k (by omega) (fun i _ => hbox i) (fun i hi => h4 i (by omega) hi) h3
        · intro i hi; rw [h5]; simp [hi]
        · rw [h5]; simp
        · intro i hi _; rw [h5]; simp [show ¬ i < k by omega, show i ≠ k by omega]
      obtain ⟨l, hl1, hl2, hl3⟩ := ih (stepLoop a b e n 0 cur) hbox' (by rw [hrank]; omega)
      have hne : cur.eqv e = false := by
        rcases hb : cur.eqv e with _ | _
        · rfl
        · exfalso
          have := (Vec.eqv_iff _ _).mp hb 0
          have hb0 := hbox 0
          rw [he.zero] at this; unfold unit at this; split at this <;> omega
      refine ⟨cur :: l, ?_, ?_, ?_⟩
      · intro fuel hf
        obtain ⟨f, rfl⟩ : ∃ f, fuel = f + 1 := ⟨fuel - 1, by omega⟩
        simp only [visit, hne, step, hm]
        have := hl1 f (by omega)
        simp only [n] at this
        simp [this]
      · rw [List.map_cons, hl2, hrank]; rfl
      · intro u hu
        rcases List.mem_cons.mp hu with rfl | hu
        · exact hbox
        · exact hl3 u hu
  have hbox0 : InBox a b a := by intro i; omega
  have hR0 : R a = 0 := rank_begin n (fun i _ => rfl)
  have hW : 0 < W := weight_pos _ _ _
  obtain ⟨l, hl1, hl2, hl3⟩ := key (W - 1) a hbox0 (by omega)
  refine ⟨l, m, hz, ?_, ?_, hl3⟩
  · intro fuel hf
    have hf' : W + 1 ≤ fuel := hf
    have := hl1 fuel (by omega)
    rw [← hE] at this
    exact this
  · rw [hR0] at hl2
    show l.map R = List.range' 0 W
    rw [hl2]; congr 1; omega

/-- C07: for all corners `a`, `b` (any dimensions, any directions) the loop over the range terminates, and the
cells it visits are pairwise different and are exactly the cells of the box. -/
theorem C07_range_enumerates_box (a b : Vec) :
    ∃ (l : List Vec) (N : Nat), (∀ fuel, N ≤ fuel → visit fuel (new a b) = some l) ∧
      l.Pairwise (fun u v => u.eqv v = false) ∧
      (∀ v, InBox a b v ↔ ∃ u ∈ l, u.eqv v = true) := by
  obtain ⟨l, m, hz, hv, hl2, hl3⟩ := visit_ranks a b
  let n := m + 1
  let R : Vec → Nat := fun v => rank a.get b.get v.get n
  refine ⟨l, weight a.get b.get n + 1, hv, ?_, ?_⟩
  · have hnd : (l.map R).Pairwise (· ≠ ·) := by show (l.map (fun v => rank a.get b.get v.get (m + 1))).Pairwise _; rw [hl2]; exact List.nodup_range'
    rw [List.pairwise_map] at hnd
    refine hnd.imp ?_
    intro u v huv
    rcases hb : u.eqv v with _ | _
    · rfl
    · exfalso; apply huv
      exact rank_congr n (fun i _ => (Vec.eqv_iff _ _).mp hb i)
  · intro v
    constructor
    · intro hv
      have hlt : R v < weight a.get b.get n := rank_lt n (fun i _ => hv i)
      have hmem : R v ∈ l.map R := by
        show R v ∈ l.map (fun v => rank a.get b.get v.get (m + 1))
        rw [hl2, List.mem_range'_1]; exact ⟨Nat.zero_le _, by rw [Nat.zero_add]; exact hlt⟩
      obtain ⟨u, hu, hRu⟩ := List.mem_map.mp hmem
      refine ⟨u, hu, ?_⟩
      rw [Vec.eqv_iff]
      have hub := hl3 u hu
      intro i
      by_cases hi : i < n
      · exact rank_inj n (fun i _ => hub i) (fun i _ => hv i) hRu i hi
      · have := hz i (by omega); have := hub i; have := hv i; omega
    · rintro ⟨u, hu, huv⟩ i
      rw [← (Vec.eqv_iff _ _).mp huv i]
      exact hl3 u hu i

/-- The rank orders the cells of a box by the highest axis on which they differ. -/
theorem rank_lt_lex {a b c d : Nat → Int} (n : Nat) (hc : ∀ i, i < n → Btw (a i) (b i) (c i))
    (hd : ∀ i, i < n → Btw (a i) (b i) (d i)) (h : rank a b c n < rank a b d n) :
    ∃ k, k < n ∧ (∀ j, k < j → j < n → c j = d j) ∧ off a c k < off a d k := by
  induction n with
  | zero => simp [rank] at h
  | succ n ih =>
    simp only [rank] at h
    have h1 := rank_lt n (fun i hi => hc i (by omega))
    have h2 := rank_lt n (fun i hi => hd i (by omega))
    rcases Nat.lt_trichotomy (off a c n) (off a d n) with hlt | heq | hgt
    · exact ⟨n, by omega, fun j _ _ => by omega, hlt⟩
    · rw [heq] at h
      obtain ⟨k, hk, hj, ho⟩ := ih (fun i hi => hc i (by omega)) (fun i hi => hd i (by omega)) (by omega)
      refine ⟨k, by omega, ?_, ho⟩
      intro j h3 h4
      by_cases he : j = n
      · subst he; exact off_inj (hc j (by omega)) (hd j (by omega)) heq
      · exact hj j h3 (by omega)
    · exfalso
      have : (off a d n + 1) * weight a b n ≤ off a c n * weight a b n := Nat.mul_le_mul_right _ hgt
      rw [Nat.add_mul] at this
      omega

/-- C07: the cells are visited in order from `a` to `b`, the first axis running fastest: of two cells the one nearer to `a` on the highest
axis on which they differ comes first. -/
theorem C07_range_in_order (a b : Vec) :
    ∃ (l : List Vec) (N : Nat), (∀ fuel, N ≤ fuel → visit fuel (new a b) = some l) ∧
      l.Pairwise (fun u v => ∃ k, (∀ j, k < j → u.get j = v.get j) ∧ (u.get k - a.get k).natAbs < (v.get k - a.get k).natAbs) := by
  obtain ⟨l, m, hz, hv, hl2, hl3⟩ := visit_ranks a b
  refine ⟨l, _, hv, ?_⟩
  have hnd : (l.map (fun v => rank a.get b.get v.get (m + 1))).Pairwise (· < ·) := by rw [hl2]; exact List.pairwise_lt_range'
  rw [List.pairwise_map] at hnd
  refine hnd.imp_of_mem ?_
  intro u v hu hv huv
  obtain ⟨k, hk, hj, ho⟩ := rank_lt_lex (m + 1) (fun i _ => hl3 u hu i) (fun i _ => hl3 v hv i) huv
  refine ⟨k, ?_, ho⟩
  intro j hkj
  by_cases hjm : j < m + 1
  · exact hj j hkj hjm
  · have := hz j (by omega); have := hl3 u hu j; have := hl3 v hv j; omega

/-- Non-vacuity: a 2x3 box traversed with one axis descending. -/
example : visit 20 (new (Vec.ofList [1, 2]) (Vec.ofList [0, 4])) =
    some [Vec.ofList [1, 2], Vec.ofList [0, 2], Vec.ofList [1, 3], Vec.ofList [0, 3],
      Vec.ofList [1, 4], Vec.ofList [0, 4]] := by decide

end Funge.VecRange
