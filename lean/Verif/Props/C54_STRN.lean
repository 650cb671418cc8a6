import Verif.Props.C42_Output
import Verif.Props.C53_SUBR
/-
C54 (STRN).
-/
namespace Funge
open Exec

/-! ### Specification -/

/-- A string: values that fit a `char`, none of them NUL. -/
def IsStr (str : List Int) : Prop := ∀ c ∈ str, c ≠ 0 ∧ toChar c = c

/-- `q` is the cell `i` steps east of `p`. -/
def EastOf (p : Vec) (i : Nat) (q : Vec) : Prop := ∀ j, q.get j = p.get j + if j = 0 then (i : Int) else 0

/-- `f'` is `f` with the string `str` and a NUL written from `p` eastward, and no other cell changed. -/
def Written (f f' : Field) (p : Vec) (str : List Int) : Prop :=
  (∀ q i, i ≤ str.length → EastOf p i q → f'.get q = (str ++ [0]).getD i 0) ∧
  (∀ q, (∀ i ≤ str.length, ¬ EastOf p i q) → f'.get q = f.get q)

/-! ### Strings on the stack -/

theorem isStr_nil : IsStr [] := fun _ h => nomatch h
theorem isStr_sub {a b : List Int} (h : IsStr b) (hs : ∀ c ∈ a, c ∈ b) : IsStr a := fun c hc => h c (hs c hc)

theorem isStr_map {str : List Int} (h : IsStr str) : str.map toChar = str := by
  conv => rhs; rw [← List.map_id str]
  exact List.map_congr_left fun c hc => (h c hc).2

theorem isStr_take {str l : List Int} (h : IsStr str) : (str ++ 0 :: l).takeWhile (· ≠ 0) = str := by
  rw [List.takeWhile_append_of_pos (fun c hc => by simpa using (h c hc).1)]; simp
theorem isStr_drop {str l : List Int} (h : IsStr str) : (str ++ 0 :: l).dropWhile (· ≠ 0) = 0 :: l := by
  rw [List.dropWhile_append_of_pos (fun c hc => by simpa using (h c hc).1)]; simp

theorem popStr {s : St} (h : s.Lifo) {str : List Int} (hs : IsStr str) (l n) :
    ∃ n', popString (s.setItems (str ++ 0 :: l) n) = .ok (str, s.setItems l n') := by
  obtain ⟨n', hn⟩ := popString_run h (str ++ 0 :: l) n
  refine ⟨n', ?_⟩
  rw [hn, isStr_take hs, isStr_map hs, isStr_drop hs]; rfl

/-! ### Length, parts, concatenation -/

/-- **C54.** `N` leaves the string and pushes its length. -/
theorem C54_length {s : St} (h : s.Lifo) {str l : List Int} (hs : IsStr str) (hi : s.items = str ++ 0 :: l) :
    ∃ s', fpRun .STRN 78 s = .ok (.none, s') ∧ s.Leaves s' ((str.length : Int) :: str ++ 0 :: l) := by
  obtain ⟨n', hp⟩ := popStr h hs l s.top.ops
  refine ⟨_, ?_, n' + 1 + str.length + 1, rfl⟩
  show strnLength s = _
  conv => lhs; rw [← setItems_self h, hi]
  rw [strnLength, bind_ok hp, bind_ok (pushStr_run h _ _ _), bind_ok (pushTop_run h _ _ _)]; rfl

/-- **C54.** `L` leaves the leftmost `n` characters (all of them if there are fewer). -/
theorem C54_left {s : St} (h : s.Lifo) {n : Nat} {str l : List Int} (hs : IsStr str) (hi : s.items = (n : Int) :: str ++ 0 :: l) :
    ∃ s', fpRun .STRN 76 s = .ok (.none, s') ∧ s.Leaves s' (str.take n ++ 0 :: l) := by
  obtain ⟨n', hp⟩ := popStr h hs l (s.top.ops + 1)
  refine ⟨_, ?_, n' + 1 + (str.take n).length, rfl⟩
  show strnLeft s = _
  conv => lhs; rw [← setItems_self h, hi, List.cons_append]
  rw [strnLeft, bind_ok (popTop_head h _ _ _), if_neg (by omega)]
  show (popString >>= _) _ = _
  rw [bind_ok hp, Int.toNat_natCast, bind_ok (pushStr_run h _ _ _)]; rfl

/-- **C54.** `R` leaves the rightmost `n` characters: a string `b` of `n` characters at the end, or all of them if there are fewer. -/
theorem C54_right {s : St} (h : s.Lifo) {n : Nat} {str l : List Int} (hs : IsStr str) (hi : s.items = (n : Int) :: str ++ 0 :: l) :
    ∃ s' a b, fpRun .STRN 82 s = .ok (.none, s') ∧ str = a ++ b ∧ b.length = min n str.length ∧ s.Leaves s' (b ++ 0 :: l) := by
  obtain ⟨n', hp⟩ := popStr h hs l (s.top.ops + 1)
  generalize hk : (if n > str.length then str.length else n) = k
  refine ⟨_, str.take (str.length - k), str.drop (str.length - k), ?_, (List.take_append_drop _ _).symm, ?_, n' + 1 + (str.drop (str.length - k)).length, rfl⟩
  · show strnRight s = _
    conv => lhs; rw [← setItems_self h, hi, List.cons_append]
    rw [strnRight, bind_ok (popTop_head h _ _ _), if_neg (by omega)]
    show (popString >>= _) _ = _
    rw [bind_ok hp, Int.toNat_natCast]
    show (pushStr (str.drop (str.length - if n > str.length then str.length else n)) >>= _) _ = _
    rw [hk, bind_ok (pushStr_run h _ _ _)]; rfl
  · rw [List.length_drop, ← hk]; split <;> omega

/-- **C54.** `M` leaves (at most) `n` characters from position `k` on. -/
theorem C54_middle {s : St} (h : s.Lifo) {n k : Nat} {str l : List Int} (hs : IsStr str) (hi : s.items = (n : Int) :: (k : Int) :: str ++ 0 :: l)
    (hk : k ≤ str.length) :
    ∃ s', fpRun .STRN 77 s = .ok (.none, s') ∧ s.Leaves s' ((str.drop k).take n ++ 0 :: l) := by
  obtain ⟨n', hp⟩ := popStr h hs l (s.top.ops + 1 + 1)
  refine ⟨_, ?_, n' + 1 + ((str.drop k).take n).length, rfl⟩
  show strnMid s = _
  conv => lhs; rw [← setItems_self h, hi, List.cons_append, List.cons_append]
  rw [strnMid, bind_ok (popTop_head h _ _ _), bind_ok (popTop_head h _ _ _), if_neg (by omega)]
  show (popString >>= _) _ = _
  rw [bind_ok hp, Int.toNat_natCast, Int.toNat_natCast, if_neg (by omega)]
  show (pushStr _ >>= _) _ = _
  rw [bind_ok (pushStr_run h _ _ _)]; rfl

/-- **C54.** Impossible parts are an error: `L` and `R` with a negative number, `M` with a negative number or position, or a position after the end. -/
theorem C54_bad_parts {s : St} (h : s.Lifo) :
    (∀ n l, s.items = n :: l → n < 0 → ∃ s', fpRun .STRN 76 s = .ok (.unspec, s') ∧ s.Leaves s' l) ∧
    (∀ n l, s.items = n :: l → n < 0 → ∃ s', fpRun .STRN 82 s = .ok (.unspec, s') ∧ s.Leaves s' l) ∧
    (∀ n k l, s.items = n :: k :: l → n < 0 ∨ k < 0 → ∃ s', fpRun .STRN 77 s = .ok (.unspec, s') ∧ s.Leaves s' l) ∧
    (∀ (n k : Nat) (str l : List Int), IsStr str → s.items = (n : Int) :: (k : Int) :: str ++ 0 :: l → str.length < k →
      ∃ s', fpRun .STRN 77 s = .ok (.unspec, s') ∧ s.Leaves s' l) := by
  refine ⟨?_, ?_, ?_, ?_⟩
  · intro n l hi hn
    refine ⟨_, ?_, s.top.ops + 1, rfl⟩
    show strnLeft s = _
    conv => lhs; rw [← setItems_self h, hi]
    rw [strnLeft, bind_ok (popTop_head h _ _ _), if_pos hn]; rfl
  · intro n l hi hn
    refine ⟨_, ?_, s.top.ops + 1, rfl⟩
    show strnRight s = _
    conv => lhs; rw [← setItems_self h, hi]
    rw [strnRight, bind_ok (popTop_head h _ _ _), if_pos hn]; rfl
  · intro n k l hi hn
    refine ⟨_, ?_, s.top.ops + 1 + 1, rfl⟩
    show strnMid s = _
    conv => lhs; rw [← setItems_self h, hi]
    rw [strnMid, bind_ok (popTop_head h _ _ _), bind_ok (popTop_head h _ _ _), if_pos hn]; rfl
  · intro n k str l hs hi hk
    obtain ⟨n', hp⟩ := popStr h hs l (s.top.ops + 1 + 1)
    refine ⟨_, ?_, n', rfl⟩
    show strnMid s = _
    conv => lhs; rw [← setItems_self h, hi, List.cons_append, List.cons_append]
    rw [strnMid, bind_ok (popTop_head h _ _ _), bind_ok (popTop_head h _ _ _), if_neg (by omega)]
    show (popString >>= _) _ = _
    rw [bind_ok hp, Int.toNat_natCast, Int.toNat_natCast, if_pos (by omega)]; rfl

/-- **C54.** `A` concatenates the two topmost strings, the topmost first. -/
theorem C54_append {s : St} (h : s.Lifo) {upper bottom l : List Int} (hu : IsStr upper) (hb : IsStr bottom)
    (hi : s.items = upper ++ 0 :: bottom ++ 0 :: l) :
    ∃ s', fpRun .STRN 65 s = .ok (.none, s') ∧ s.Leaves s' (upper ++ bottom ++ 0 :: l) := by
  obtain ⟨n1, h1⟩ := popStr h hu (bottom ++ 0 :: l) s.top.ops
  obtain ⟨n2, h2⟩ := popStr h hb l n1
  refine ⟨_, ?_, n2 + 1 + (upper ++ bottom).length, rfl⟩
  show strnAppend s = _
  conv => lhs; rw [← setItems_self h, hi, List.append_assoc, List.cons_append]
  rw [strnAppend, bind_ok h1, bind_ok h2, bind_ok (pushStr_run h _ _ _)]; rfl

/-! ### Searching -/

theorem strFind_some {b u r : List Int} (h : strFind b u = some r) :
    ∃ a t, u = a ++ r ∧ r = b ++ t ∧ ∀ a' t', u = a' ++ (b ++ t') → a.length ≤ a'.length := by
  induction u with
  | nil =>
    unfold strFind at h
    split at h
    · rename_i hb
      cases h; subst hb
      exact ⟨[], [], rfl, rfl, fun _ _ _ => Nat.zero_le _⟩
    · cases h
  | cons c u ih =>
    unfold strFind at h
    split at h
    · rename_i hp
      cases h
      obtain ⟨t, ht⟩ := List.isPrefixOf_iff_prefix.1 hp
      exact ⟨[], t, rfl, ht.symm, fun _ _ _ => Nat.zero_le _⟩
    · rename_i hp
      obtain ⟨a, t, h1, h2, h3⟩ := ih h
      refine ⟨c :: a, t, by rw [h1]; rfl, h2, ?_⟩
      intro a' t' he
      cases a' with
      | nil => exact absurd (List.isPrefixOf_iff_prefix.2 ⟨t', he.symm⟩) hp
      | cons x a' =>
        rw [List.cons_append] at he
        injection he with _ he
        exact Nat.succ_le_succ (h3 a' t' he)

theorem strFind_none {b u : List Int} (h : strFind b u = none) : ∀ a t, u ≠ a ++ (b ++ t) := by
  induction u with
  | nil =>
    unfold strFind at h
    split at h
    · cases h
    · rename_i hb
      intro a t he
      have := List.append_eq_nil_iff.1 he.symm
      exact hb (List.append_eq_nil_iff.1 this.2).1
  | cons c u ih =>
    unfold strFind at h
    split at h
    · cases h
    · rename_i hp
      intro a t he
      cases a with
      | nil => exact hp (List.isPrefixOf_iff_prefix.2 ⟨t, he.symm⟩)
      | cons x a =>
        rw [List.cons_append] at he
        injection he with _ he
        exact ih h a t he

/-- **C54.** `F` looks for the lower string in the upper one: what it leaves begins with the first occurrence and goes on to the end; if there is none, it
leaves the empty string. -/
theorem C54_find {s : St} (h : s.Lifo) {upper bottom l : List Int} (hu : IsStr upper) (hb : IsStr bottom)
    (hi : s.items = upper ++ 0 :: bottom ++ 0 :: l) :
    ∃ s', fpRun .STRN 70 s = .ok (.none, s') ∧
      ((∃ a t, upper = a ++ (bottom ++ t) ∧ (∀ a' t', upper = a' ++ (bottom ++ t') → a.length ≤ a'.length) ∧ s.Leaves s' (bottom ++ t ++ 0 :: l)) ∨
       ((∀ a t, upper ≠ a ++ (bottom ++ t)) ∧ s.Leaves s' (0 :: l))) := by
  obtain ⟨n1, h1⟩ := popStr h hu (bottom ++ 0 :: l) s.top.ops
  obtain ⟨n2, h2⟩ := popStr h hb l n1
  have he : fpRun .STRN 70 s = (do
      match strFind bottom upper with
      | some r => pushStr r
      | none => pushTop 0
      pure .none : Exec Err) (s.setItems l n2) := by
    show strnFind s = _
    conv => lhs; rw [← setItems_self h, hi, List.append_assoc, List.cons_append]
    rw [strnFind, bind_ok h1, bind_ok h2]
    rfl
  rw [he]
  cases hf : strFind bottom upper with
  | some r =>
    obtain ⟨a, t, h3, h4, h5⟩ := strFind_some hf
    refine ⟨_, ?_, .inl ⟨a, t, by rw [h3, h4], h5, n2 + 1 + r.length, rfl⟩⟩
    show (pushStr r >>= _) _ = _
    rw [bind_ok (pushStr_run h _ _ _), h4]; rfl
  | none =>
    refine ⟨_, ?_, .inr ⟨strFind_none hf, n2 + 1, rfl⟩⟩
    show (pushTop 0 >>= _) _ = _
    rw [bind_ok (pushTop_run h _ _ _)]; rfl

/-! ### Storing and fetching -/

/-- The field after `P`. -/
def putStr (f : Field) (p : Vec) : List Int → Field
  | [] => f.put p 0
  | c :: t => putStr (f.put p c) (p.add (Vec.ofList [1])) t

theorem putStr_run (str : List Int) (p : Vec) (s : St) :
    strnPutLoop p str s = .ok ((), s.setG { s.g with field := putStr s.g.field p str }) := by
  induction str generalizing p s with
  | nil => exact fieldPut_run _ _ _
  | cons c t ih =>
    rw [strnPutLoop, bind_ok (fieldPut_run _ _ _), ih]
    rfl

theorem get_one (j : Nat) : (Vec.ofList [1]).get j = if j = 0 then 1 else 0 := by
  rw [Vec.get_ofList]
  cases j <;> simp

theorem eastOf_zero {p q : Vec} : EastOf p 0 q ↔ p.eqv q = true := by
  rw [Vec.eqv_iff]
  constructor
  · intro h j; have := h j; simp at this; exact this.symm
  · intro h j; simp [h j]

theorem eastOf_succ {p q : Vec} {i : Nat} : EastOf (p.add (Vec.ofList [1])) i q ↔ EastOf p (i + 1) q := by
  constructor <;> intro h j <;> have := h j <;> rw [Vec.get_add, get_one] at * <;> split at * <;> omega

theorem eastOf_inj {p q : Vec} {i k : Nat} (h : EastOf p i q) (h' : EastOf p k q) : i = k := by
  have := h 0; have := h' 0
  simp at *; omega

theorem putStr_written {str : List Int} (hs : ∀ c ∈ str, toChar c = c) {f : Field} (hu : Field.UniqueKeys f.cells) (p : Vec) : Written f (putStr f p str) p str ∧
    (putStr f p str).charCells = f.charCells := by
  induction str generalizing f p with
  | nil =>
    refine ⟨⟨?_, ?_⟩, Field.put_charCells _ _ _⟩
    · intro q i hi he
      have hi : i = 0 := by simpa using hi
      subst hi
      rw [putStr, Field.get_put hu, if_pos (eastOf_zero.1 he)]
      unfold Field.cellOf; split <;> rfl
    · intro q hq
      rw [putStr, Field.get_put hu, if_neg fun h => hq 0 (Nat.zero_le _) (eastOf_zero.2 h)]
  | cons c t ih =>
    obtain ⟨⟨h1, h2⟩, h3⟩ := ih (fun x hx => hs x (List.mem_cons_of_mem _ hx)) (Field.unique_put hu p c) (p.add (Vec.ofList [1]))
    refine ⟨⟨?_, ?_⟩, h3.trans (Field.put_charCells _ _ _)⟩
    · intro q i hi he
      cases i with
      | zero =>
        rw [putStr, h2]
        · rw [Field.get_put hu, if_pos (eastOf_zero.1 he)]
          unfold Field.cellOf
          have := hs c List.mem_cons_self
          split
          · exact this
          · rfl
        · intro k _ hk
          exact absurd (eastOf_inj he (eastOf_succ.1 hk)) (by omega)
      | succ i =>
        rw [putStr, h1 q i (by simpa using hi) (eastOf_succ.2 he)]
        simp
    · intro q hq
      rw [putStr, h2]
      · rw [Field.get_put hu, if_neg fun h => hq 0 (Nat.zero_le _) (eastOf_zero.2 h)]
      · intro k hk he
        exact hq (k + 1) (by simpa using hk) (eastOf_succ.1 he)

theorem getStr_run {str : List Int} (hs : IsStr str) (n : Nat) (hn : str.length < n) (p : Vec) (acc : List Int) (s : St)
    (hf : ∀ q i, i ≤ str.length → EastOf p i q → s.g.field.get q = (str ++ [0]).getD i 0) :
    strnGetLoop n p acc s = .ok (acc.reverse ++ str, s) := by
  induction str generalizing n p acc with
  | nil =>
    obtain ⟨n, rfl⟩ : ∃ m, n = m + 1 := ⟨n - 1, by omega⟩
    have h0 : s.g.field.get p = 0 := hf p 0 (Nat.le_refl _) (eastOf_zero.2 (Vec.eqv_refl p))
    rw [strnGetLoop, bind_ok (fieldGet_run _ _), if_pos h0]
    simp [pure_run]
  | cons c t ih =>
    obtain ⟨n, rfl⟩ : ∃ m, n = m + 1 := ⟨n - 1, by omega⟩
    have h0 : s.g.field.get p = c := hf p 0 (Nat.zero_le _) (eastOf_zero.2 (Vec.eqv_refl p))
    have hc := hs c List.mem_cons_self
    rw [strnGetLoop, bind_ok (fieldGet_run _ _), h0, if_neg hc.1, hc.2]
    rw [ih (isStr_sub hs fun x hx => List.mem_cons_of_mem _ hx) n (by simpa using hn)]
    · simp
    · intro q i hi he
      have := hf q (i + 1) (by simpa using hi) (eastOf_succ.1 he)
      simpa using this

/-- **C54.** `P` takes a vector and a string and writes the string and a NUL from that vector (relative to the storage offset) eastward; no other
cell, and nothing else, changes. -/
theorem C54_put {s : St} (h : s.Lifo) (hu : Field.UniqueKeys s.g.field.cells) {v : Vec} {str l : List Int} (hs : IsStr str)
    (hi : s.items = coords s.g.cfg.dims v ++ str ++ 0 :: l) :
    ∃ w n f', fpRun .STRN 80 s = .ok (.none, (s.setItems l n).setG { s.g with field := f' }) ∧ SameVec s.g.cfg.dims v w ∧
      Written s.g.field f' (w.add s.cur.ip.storage) str ∧ Field.UniqueKeys f'.cells := by
  obtain ⟨w, h1, h2⟩ := popCoords h v (str ++ 0 :: l) s.top.ops
  obtain ⟨n, h3⟩ := popStr h hs l (s.top.ops + s.g.cfg.dims)
  refine ⟨w, n, putStr s.g.field (w.add s.cur.ip.storage) str, ?_, h2, (putStr_written (fun c hc => (hs c hc).2) hu _).1, ?_⟩
  · show strnPut s = _
    conv => lhs; rw [← setItems_self h, hi, List.append_assoc]
    rw [strnPut, bind_ok h1, bind_ok (ipStorage_run _), bind_ok h3, bind_ok (putStr_run _ _ _)]; rfl
  · have : ∀ (str : List Int) (f : Field) (p : Vec), Field.UniqueKeys f.cells → Field.UniqueKeys (putStr f p str).cells := by
      intro str
      induction str with
      | nil => intro f p hf; exact Field.unique_put hf _ _
      | cons c t ih => intro f p hf; exact ih _ _ (Field.unique_put hf _ _)
    exact this str _ _ hu

theorem written_congr {f f' : Field} {p q : Vec} {str : List Int} (h : Written f f' p str) (he : ∀ j, p.get j = q.get j) : Written f f' q str := by
  have hk : ∀ r i, EastOf p i r ↔ EastOf q i r := by
    intro r i; constructor <;> intro h j <;> have := h j <;> rw [he] at * <;> exact this
  exact ⟨fun r i hi hr => h.1 r i hi ((hk r i).2 hr), fun r hr => h.2 r fun i hi hc => hr i hi ((hk r i).1 hc)⟩

/-- **C54.** `G` takes a vector and pushes the string written there. -/
theorem C54_get {s : St} (h : s.Lifo) {v : Vec} {str l : List Int} (hs : IsStr str) {f : Field} (hf : str.length < s.g.fuel)
    (hi : s.items = coords s.g.cfg.dims v ++ l) {p : Vec} (hp : ∀ j, p.get j = (if j < s.g.cfg.dims then v.get j else 0) + s.cur.ip.storage.get j)
    (hw : Written f s.g.field p str) :
    ∃ s', fpRun .STRN 71 s = .ok (.none, s') ∧ s.Leaves s' (str ++ 0 :: l) := by
  obtain ⟨w, h1, h2⟩ := popCoords h v l s.top.ops
  have hw' : Written f s.g.field (w.add s.cur.ip.storage) str := written_congr hw fun j => by rw [hp, Vec.get_add, h2 j]
  refine ⟨_, ?_, s.top.ops + s.g.cfg.dims + 1 + str.length, rfl⟩
  show strnGet s = _
  conv => lhs; rw [← setItems_self h, hi]
  rw [strnGet, bind_ok h1, bind_ok (ipStorage_run _), bind_ok (getFuel_run _),
    bind_ok (getStr_run hs (s.setItems l (s.top.ops + s.g.cfg.dims)).g.fuel hf (w.add (s.setItems l (s.top.ops + s.g.cfg.dims)).cur.ip.storage) _
      (s.setItems l (s.top.ops + s.g.cfg.dims)) hw'.1), bind_ok (pushStr_run h _ _ _)]
  rfl

/-- **C54.** A string stored with `P` is fetched with `G` from the same vector: `s` is the state at the `P`, `s₁` the one after it, and `t` any later state
in which the field, the storage offset and the dimensions are still the same and the vector is on top of the stack again. -/
theorem C54_put_get {s : St} (h : s.Lifo) (hu : Field.UniqueKeys s.g.field.cells) {v : Vec} {str l : List Int} (hs : IsStr str)
    (hi : s.items = coords s.g.cfg.dims v ++ str ++ 0 :: l) :
    ∃ s₁, fpRun .STRN 80 s = .ok (.none, s₁) ∧ ∀ (t : St) (l' : List Int), t.Lifo → t.g.field = s₁.g.field → t.cur.ip.storage = s.cur.ip.storage →
      t.g.cfg.dims = s.g.cfg.dims → str.length < t.g.fuel → t.items = coords s.g.cfg.dims v ++ l' →
      ∃ t', fpRun .STRN 71 t = .ok (.none, t') ∧ t.Leaves t' (str ++ 0 :: l') := by
  obtain ⟨w, n, f', h1, h2, h3, -⟩ := C54_put h hu hs hi
  refine ⟨_, h1, ?_⟩
  intro t l' ht hf hst hd hfu hti
  refine C54_get (f := s.g.field) (p := w.add s.cur.ip.storage) (v := v) ht hs hfu (by rw [hd]; exact hti) ?_ ?_
  · intro j; rw [Vec.get_add, h2 j, hd, hst]
  · rw [hf]; exact h3

/-- A string beyond `char` is not the same afterwards: `G` after `P` yields -56 for 200, and even `N` changes it. -/
theorem C54_false_beyond_char : (match fpRun .STRN 78 ((machine []).setItems [200, 0] 0) with | .ok (_, s) => some s.items | .error _ => none) =
    some [1, -56, 0] := by decide +kernel

/-! ### Numbers -/

theorem digitsVal_eq (l : List Int) (hl : ∀ c ∈ l, 48 ≤ c ∧ c ≤ 57) (a : Int) : digitsVal a l = l.foldl (fun a c => a * 10 + (c - 48)) a := by
  induction l generalizing a with
  | nil => rfl
  | cons c t ih =>
    rw [digitsVal, if_pos (hl c List.mem_cons_self), ih fun x hx => hl x (List.mem_cons_of_mem _ hx)]
    rfl

theorem stoi_digits {l : List Int} (hl : IsDigits l) (neg : Bool) : stoi (if neg then 45 :: l else l) =
    (let v := if neg then -digitsValue l else digitsValue l
     if -2147483648 ≤ v ∧ v ≤ 2147483647 then .ok v else .error .exception) := by
  obtain ⟨hne, hd, -⟩ := hl
  cases l with
  | nil => exact absurd rfl hne
  | cons c t =>
    have hc := hd c List.mem_cons_self
    have hv : digitsVal 0 (c :: t) = digitsValue (c :: t) := digitsVal_eq _ hd 0
    cases neg
    · have h1 : (c :: t).dropWhile isSpaceByte = c :: t := by
        rw [List.dropWhile_cons_of_neg]
        simp [isSpaceByte]; omega
      unfold stoi
      simp only [Bool.false_eq_true, if_false]
      rw [h1]
      have h2 : c = 48 ∨ c = 49 ∨ c = 50 ∨ c = 51 ∨ c = 52 ∨ c = 53 ∨ c = 54 ∨ c = 55 ∨ c = 56 ∨ c = 57 := by omega
      rcases h2 with rfl | rfl | rfl | rfl | rfl | rfl | rfl | rfl | rfl | rfl <;> simp [hv]
    · have h1 : (45 :: c :: t).dropWhile isSpaceByte = 45 :: c :: t := by
        rw [List.dropWhile_cons_of_neg]
        simp [isSpaceByte]
      unfold stoi
      simp only [if_true]
      rw [h1]
      simp [hv, hc]

/-- Digits, with or without a sign, are a string. -/
theorem isStr_decimal (x : Int) : IsStr (decimal x) := by
  have hd : ∀ l : List Int, IsDigits l → IsStr l := by
    intro l hl c hc
    have := hl.2.1 c hc
    refine ⟨by omega, ?_⟩
    unfold toChar
    exact Int.bmod_eq_of_le (by omega) (by omega)
  rcases decimal_spec x with ⟨-, h, -⟩ | ⟨-, ds, h, h', -⟩
  · exact hd _ h
  · rw [h]
    intro c hc
    rcases List.mem_cons.1 hc with rfl | hc
    · decide
    · exact hd _ h' c hc

theorem stoi_decimal (x : Int) : stoi (decimal x) = if -2147483648 ≤ x ∧ x ≤ 2147483647 then .ok x else .error .exception := by
  rcases decimal_spec x with ⟨-, h, h'⟩ | ⟨-, ds, h, hd, h'⟩
  · have := stoi_digits h false
    simp only [Bool.false_eq_true, if_false, h'] at this
    exact this
  · have := stoi_digits hd true
    simp only [if_true, h', Int.neg_neg] at this
    rw [h]; exact this

/-- **C54.** `S` writes a number as a string and `V` reads it back, within `int`; beyond it `V` throws. -/
theorem C54_number {s : St} (h : s.Lifo) {x : Int} {l : List Int} (hi : s.items = x :: l) :
    ∃ s₁ str, fpRun .STRN 83 s = .ok (.none, s₁) ∧ IsDecimal x str ∧ s.Leaves s₁ (str ++ 0 :: l) ∧
      (-2147483648 ≤ x ∧ x ≤ 2147483647 → ∃ s₂, fpRun .STRN 86 s₁ = .ok (.none, s₂) ∧ s.Leaves s₂ (x :: l)) ∧
      (¬(-2147483648 ≤ x ∧ x ≤ 2147483647) → fpRun .STRN 86 s₁ = .error .exception) := by
  have h1 : fpRun .STRN 83 s = .ok (.none, s.setItems (decimal x ++ 0 :: l) (s.top.ops + 1 + 1 + (decimal x).length)) := by
    show strnItoa s = _
    conv => lhs; rw [← setItems_self h, hi]
    rw [strnItoa, bind_ok (popTop_head h _ _ _), bind_ok (pushStr_run h _ _ _)]; rfl
  have hc : cstr (decimal x) = decimal x := by
    unfold cstr
    have := isStr_take (l := []) (isStr_decimal x)
    rw [List.takeWhile_append] at this
    split at this
    · rename_i h; exact List.takeWhile_prefix _ |>.eq_of_length h
    · exact this
  refine ⟨_, _, h1, decimal_spec x, ⟨_, rfl⟩, ?_, ?_⟩
  · intro hx
    obtain ⟨n, hp⟩ := popStr h (isStr_decimal x) l (s.top.ops + 1 + 1 + (decimal x).length)
    refine ⟨_, ?_, n + 1, rfl⟩
    show strnAtoi _ = _
    rw [strnAtoi, bind_ok hp, hc, stoi_decimal, if_pos hx]
    show (pushTop x >>= _) _ = _
    rw [bind_ok (pushTop_run h _ _ _)]; rfl
  · intro hx
    obtain ⟨n, hp⟩ := popStr h (isStr_decimal x) l (s.top.ops + 1 + 1 + (decimal x).length)
    show strnAtoi _ = _
    rw [strnAtoi, bind_ok hp, hc, stoi_decimal, if_neg hx]
    rfl

/-! ### Examples -/

/-- `"NRTS"4(0"cba"05P05G`: the string is written to line 5 and fetched from there. -/
def strnProgram : St := machine [34, 78, 82, 84, 83, 34, 52, 40, 48, 34, 99, 98, 97, 34, 48, 53, 80, 48, 53, 71]

/-- At its `P` and its `G`, and after it. -/
example : IsStr [97, 98, 99] ∧ Field.UniqueKeys strnProgram.g.field.cells ∧ (match ticks 16 strnProgram with
    | .ok (_, s) => s.items == coords s.g.cfg.dims (Vec.ofList [0, 5]) ++ [97, 98, 99] ++ 0 :: [1, 1398035022] && decide s.Lifo && decide (3 < s.g.fuel)
    | .error _ => false) = true ∧ stackAfter strnProgram 19 = some [5, 0, 1, 1398035022] ∧
    stackAfter strnProgram 20 = some ([97, 98, 99] ++ 0 :: [1, 1398035022]) :=
  ⟨by unfold IsStr; decide, by unfold Field.UniqueKeys; decide +kernel, by decide +kernel, by decide +kernel, by decide +kernel⟩

/-- The other instructions on the string "abc". -/
example : ((machine []).setItems ([97, 98, 99] ++ 0 :: [7]) 0).Lifo ∧
    ((machine []).setItems ([97, 98, 99] ++ 0 :: [7]) 0).items = [97, 98, 99] ++ 0 :: [7] ∧
    ((machine []).setItems (((2 : Nat) : Int) :: [97, 98, 99] ++ 0 :: [7]) 0).items = ((2 : Nat) : Int) :: [97, 98, 99] ++ 0 :: [7] := by decide +kernel

end Funge
