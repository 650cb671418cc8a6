import Verif.Model.Vec
/-! Helper lemmas about the vector model. -/
namespace Funge.Vec

theorem stripRev_get (l : List Int) (i : Nat) :
    (stripRev l).reverse[i]?.getD 0 = l.reverse[i]?.getD 0 := by
  fun_induction stripRev l with
  | case1 y t ih =>
    rw [ih]
    simp only [List.reverse_cons, List.append_assoc]
    by_cases h : i < (t.reverse ++ [y]).length
    · have : (t.reverse ++ ([y] ++ [0]))[i]? = (t.reverse ++ [y])[i]? := by
        rw [← List.append_assoc, List.getElem?_append_left h]
      rw [this]
    · have h1 : (t.reverse ++ [y])[i]? = none := by simp at h ⊢; omega
      rw [h1, ← List.append_assoc, List.getElem?_append_right (by omega)]
      rcases hi : i - (t.reverse ++ [y]).length with _ | n <;> simp
  | case2 => rfl
  | case3 => rfl

theorem get_eq (v : Vec) (i : Nat) : v.get i = v.vals[i]?.getD 0 := by
  unfold get; split
  · rename_i h; simp [h]
  · rename_i h; simp at h; simp [h]

@[simp] theorem get_normalize (v : Vec) (i : Nat) : v.normalize.get i = v.get i := by
  simp only [get_eq, normalize]
  rw [stripRev_get]; simp

theorem get_ofList (l : List Int) (i : Nat) : (ofList l).get i = l[i]?.getD 0 := by
  simp [ofList, get_eq ⟨l⟩]

theorem get_set (v : Vec) (d : Nat) (x : Int) (i : Nat) :
    (v.set d x).get i = if i = d then x else v.get i := by
  simp only [set, get_normalize]
  simp only [get_eq]
  split
  · subst i
    rw [List.getElem?_set_self (by simp; omega)]
    rfl
  · rw [List.getElem?_set_ne (by omega)]
    by_cases h : i < v.vals.length
    · rw [List.getElem?_append_left h]
    · rw [List.getElem?_append_right (by omega)]
      have h2 : v.vals[i]? = none := by simp; omega
      rw [h2]
      by_cases h3 : i - v.vals.length < d + 1 - v.vals.length
      · simp [h3]
      · have : (List.replicate (d + 1 - v.vals.length) (0:Int))[i - v.vals.length]? = none := by
          simp; omega
        simp [this]

@[simp] theorem get_set_self (v : Vec) (d : Nat) (x : Int) : (v.set d x).get d = x := by
  simp [get_set]

theorem get_of_size_le (v : Vec) {i : Nat} (h : v.size ≤ i) : v.get i = 0 := by
  unfold get size at *; simp; omega

/-- Normal form: no trailing zero except possibly a single one. -/
def Normal (v : Vec) : Prop := v.vals.length ≤ 1 ∨ v.vals.getLast? ≠ some 0

theorem stripRev_head (l : List Int) : (stripRev l).length ≤ 1 ∨ (stripRev l).head? ≠ some 0 := by
  fun_induction stripRev l with
  | case1 => assumption
  | case2 x y t hx => right; simpa using hx
  | case3 l h =>
    left
    match l, h with
    | [], _ => simp
    | [x], _ => simp
    | x :: y :: t, h => exact absurd rfl (h x y t)

theorem normal_normalize (v : Vec) : v.normalize.Normal := by
  unfold Normal normalize
  rcases stripRev_head v.vals.reverse with h | h
  · left; simpa using h
  · right; simpa [List.getLast?_reverse] using h

theorem normal_set (v : Vec) (d x) : (v.set d x).Normal := normal_normalize _
theorem normal_ofList (l) : (ofList l).Normal := normal_normalize _
theorem normal_empty : Normal empty := Or.inl (by simp [empty])

theorem stripRev_ne_nil (l : List Int) (h : l ≠ []) : stripRev l ≠ [] := by
  fun_induction stripRev l with
  | case1 => rename_i ih; exact ih (by simp)
  | case2 => simp
  | case3 => exact h

theorem size_set_pos (v : Vec) (d x) : 0 < (v.set d x).size := by
  have hne : ((v.vals ++ List.replicate (d + 1 - v.vals.length) (0:Int)).set d x) ≠ [] := by
    intro h
    have := congrArg List.length h
    rw [List.length_set, List.length_append, List.length_replicate, List.length_nil] at this
    omega
  have := stripRev_ne_nil (((v.vals ++ List.replicate (d + 1 - v.vals.length) (0:Int)).set d x).reverse)
    (by simpa using hne)
  simp only [set, normalize, size, List.length_reverse]
  exact List.length_pos_iff.mpr this

/-- The size of a normal vector is determined by its coordinates: the last explicit one is non-zero. -/
theorem Normal.get_last {v : Vec} (h : v.Normal) (h1 : 1 < v.size) : v.get (v.size - 1) ≠ 0 := by
  rcases h with h | h
  · unfold size at h1; omega
  · unfold size at *
    rw [get_eq]
    rw [List.getLast?_eq_getElem?] at h
    intro hc
    apply h
    have : v.vals.length - 1 < v.vals.length := by omega
    rw [List.getElem?_eq_getElem this] at hc ⊢
    simpa using hc

theorem ext_of_size {v w : Vec} (hs : v.size = w.size) (h : ∀ i, v.get i = w.get i) : v = w := by
  cases v with | mk a => cases w with | mk b =>
  congr
  unfold size at hs; simp at hs
  apply List.ext_getElem hs
  intro i h1 h2
  have := h i
  simp only [get, h1, h2, dif_pos] at this
  exact this

theorem Normal.ext {v w : Vec} (hv : v.Normal) (hw : w.Normal) (h0 : 0 < v.size) (h0' : 0 < w.size)
    (h : ∀ i, v.get i = w.get i) : v = w := by
  apply ext_of_size _ h
  rcases Nat.lt_trichotomy v.size w.size with hlt | heq | hgt
  · exfalso
    have := hw.get_last (by omega)
    rw [← h, get_of_size_le v (by omega)] at this
    exact this rfl
  · exact heq
  · exfalso
    have := hv.get_last (by omega)
    rw [h, get_of_size_le w (by omega)] at this
    exact this rfl

theorem eqv_iff (v w : Vec) : v.eqv w = true ↔ ∀ i, v.get i = w.get i := by
  unfold eqv
  simp only [List.all_eq_true, List.mem_range, beq_iff_eq]
  constructor
  · intro h i
    by_cases hi : i < max v.size w.size
    · exact h i hi
    · rw [get_of_size_le v (by omega), get_of_size_le w (by omega)]
  · intro h i _; exact h i

theorem get_foldl_range (f : Int → Nat → Int) (v : Vec) (n i : Nat) :
    ((List.range n).foldl (fun a i => a.set i (f (a.get i) i)) v).get i =
      if i < n then f (v.get i) i else v.get i := by
  induction n with
  | zero => simp
  | succ n ih =>
    rw [List.range_succ, List.foldl_append]
    simp only [List.foldl_cons, List.foldl_nil, get_set]
    have key : ∀ j, ((List.range n).foldl (fun a i => a.set i (f (a.get i) i)) v).get j =
        if j < n then f (v.get j) j else v.get j := by
      intro j
      clear ih
      induction n generalizing j with
      | zero => simp
      | succ n ih =>
        rw [List.range_succ, List.foldl_append]
        simp only [List.foldl_cons, List.foldl_nil, get_set]
        by_cases hj : j = n
        · subst hj; rw [ih]; simp
        · rw [if_neg hj, ih]
          have : (j < n) ↔ (j < n + 1) := by omega
          simp [this]
    by_cases hi : i = n
    · subst hi; rw [key]; simp
    · rw [if_neg hi, ih]
      have : (i < n) ↔ (i < n + 1) := by omega
      simp [this]

@[simp] theorem get_add (v w : Vec) (i : Nat) : (v.add w).get i = v.get i + w.get i := by
  unfold add
  rw [get_foldl_range (fun x i => x + w.get i)]
  split
  · rfl
  · rw [get_of_size_le w (by omega)]; simp

@[simp] theorem get_sub (v w : Vec) (i : Nat) : (v.sub w).get i = v.get i - w.get i := by
  unfold sub
  rw [get_foldl_range (fun x i => x - w.get i)]
  split
  · rfl
  · rw [get_of_size_le w (by omega)]; simp

theorem get_reverseLoop (n i : Nat) (v : Vec) (hn : v.size ≤ i + n) (j : Nat) :
    (reverseLoop n i v).get j = if i ≤ j then - v.get j else v.get j := by
  induction n generalizing i v with
  | zero =>
    simp only [reverseLoop]
    split
    · rw [get_of_size_le v (by omega)]; rfl
    · rfl
  | succ n ih =>
    simp only [reverseLoop]
    split
    · have hsz : (v.set i (-v.get i)).size ≤ v.size := by
        unfold set normalize size
        simp only [List.length_reverse]
        have : ∀ l : List Int, (stripRev l).length ≤ l.length := by
          intro l; fun_induction stripRev l <;> simp_all; omega
        refine Nat.le_trans (this _) ?_
        rename_i hi
        unfold size at hi
        simp; omega
      rw [ih _ _ (by omega)]
      rw [get_set]
      by_cases h1 : j = i
      · subst h1
        simp [show ¬ (j + 1 ≤ j) by omega]
      · by_cases h2 : i + 1 ≤ j
        · simp [h1, h2, show i ≤ j by omega]
        · simp [h1, h2, show ¬ i ≤ j by omega]
    · rename_i hi
      split
      · rw [get_of_size_le v (by omega)]; rfl
      · rfl

@[simp] theorem get_reverse (v : Vec) (i : Nat) : v.reverse.get i = - v.get i := by
  unfold reverse; rw [get_reverseLoop _ _ _ (by omega)]; simp

theorem get_left (v : Vec) (i : Nat) :
    v.left.get i = if i = 0 then v.get 1 else if i = 1 then - v.get 0 else v.get i := by
  unfold left; simp only [get_set]
  by_cases h0 : i = 0
  · subst h0; simp
  · by_cases h1 : i = 1 <;> simp [h0, h1]

theorem get_right (v : Vec) (i : Nat) :
    v.right.get i = if i = 0 then - v.get 1 else if i = 1 then v.get 0 else v.get i := by
  unfold right; simp only [get_set]
  by_cases h0 : i = 0
  · subst h0; simp
  · by_cases h1 : i = 1 <;> simp [h0, h1]

theorem normal_foldl_set (g : Vec → Nat → Int) (l : List Nat) (v : Vec) (hv : v.Normal) :
    (l.foldl (fun a i => a.set i (g a i)) v).Normal := by
  induction l generalizing v with
  | nil => exact hv
  | cons a t ih => exact ih _ (normal_set _ _ _)

theorem size_pos_foldl_set (g : Vec → Nat → Int) (l : List Nat) (v : Vec) (hv : 0 < v.size) :
    0 < (l.foldl (fun a i => a.set i (g a i)) v).size := by
  induction l generalizing v with
  | nil => exact hv
  | cons a t ih => exact ih _ (size_set_pos _ _ _)

theorem normal_add {v : Vec} (hv : v.Normal) (w : Vec) : (v.add w).Normal :=
  normal_foldl_set (fun a i => a.get i + w.get i) _ _ hv
theorem normal_sub {v : Vec} (hv : v.Normal) (w : Vec) : (v.sub w).Normal :=
  normal_foldl_set (fun a i => a.get i - w.get i) _ _ hv

theorem normal_reverse {v : Vec} (hv : v.Normal) : v.reverse.Normal := by
  unfold reverse
  generalize v.size = n
  generalize 0 = i
  induction n generalizing i v with
  | zero => exact hv
  | succ n ih =>
    simp only [reverseLoop]; split
    · exact ih (normal_set _ _ _) _
    · exact hv

theorem size_pos_reverse {v : Vec} (hv : 0 < v.size) : 0 < v.reverse.size := by
  unfold reverse
  have key : ∀ n i (w : Vec), 0 < w.size → 0 < (reverseLoop n i w).size := by
    intro n
    induction n with
    | zero => intro i w h; exact h
    | succ n ih =>
      intro i w h
      simp only [reverseLoop]; split
      · exact ih _ _ (size_set_pos _ _ _)
      · exact h
  exact key _ _ _ hv

theorem size_pos_add {v : Vec} (hv : 0 < v.size) (w : Vec) : 0 < (v.add w).size :=
  size_pos_foldl_set (fun a i => a.get i + w.get i) _ _ hv

end Funge.Vec
