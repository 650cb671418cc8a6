import Verif.Props.C42_Output
import Verif.Props.C51_FRTH
/-
C55 (BASE).
-/
namespace Funge
open Exec

/-! ### Specification -/

/-- The number a list of digits (most significant first) stands for in base `b`. -/
def valueIn (b : Nat) (ds : List Nat) : Nat := ds.foldl (fun a d => a * b + d) 0

/-- `ds` are the digits of `n` in base `b`, without superfluous leading zeros. -/
def DigitsOf (b n : Nat) (ds : List Nat) : Prop := ds ≠ [] ∧ (∀ d ∈ ds, d < b) ∧ valueIn b ds = n ∧ (ds.head? = some 0 → n = 0)

/-! ### Printing -/

/-- The digits of `n` in base `b`, by division. -/
def digitsBy (b : Nat) : Nat → Nat → List Nat
  | 0, _ => []
  | k + 1, n => (if n / b > 0 then digitsBy b k (n / b) else []) ++ [n % b]

theorem valueIn_append (b : Nat) (ds : List Nat) (d : Nat) : valueIn b (ds ++ [d]) = valueIn b ds * b + d := by
  simp [valueIn]

theorem digitsBy_spec {b : Nat} (hb : 2 ≤ b) : ∀ (k n : Nat), n < k → DigitsOf b n (digitsBy b k n) := by
  intro k
  induction k with
  | zero => intro n h; omega
  | succ k ih =>
    intro n hn
    rw [digitsBy]
    by_cases h : n / b > 0
    · rw [if_pos h]
      have hlt : n / b < n := Nat.div_lt_self (by
        rcases Nat.eq_zero_or_pos n with h0 | h0
        · subst h0; simp at h
        · exact h0) (by omega)
      obtain ⟨h1, h2, h3, h4⟩ := ih (n / b) (by omega)
      refine ⟨by simp, ?_, ?_, ?_⟩
      · intro d hd
        rcases List.mem_append.1 hd with hd | hd
        · exact h2 d hd
        · rw [List.mem_singleton.1 hd]; exact Nat.mod_lt _ (by omega)
      · rw [valueIn_append, h3, Nat.mul_comm]; exact Nat.div_add_mod n b
      · intro he
        have : (digitsBy b k (n / b)).head? = some 0 := by
          cases hd : digitsBy b k (n / b) with
          | nil => exact absurd hd h1
          | cons x t => rw [hd] at he; simpa using he
        have := h4 this
        omega
    · rw [if_neg h]
      have hlt : n < b := by
        have : n / b = 0 := Nat.eq_zero_of_not_pos h
        rcases Nat.div_eq_zero_iff.1 this with h | h <;> omega
      refine ⟨by simp, ?_, ?_, ?_⟩
      · intro d hd
        simp only [List.nil_append, List.mem_singleton] at hd
        subst hd; exact Nat.mod_lt _ (by omega)
      · simp [valueIn, Nat.mod_eq_of_lt hlt]
      · intro he
        have he : n % b = 0 := by simpa using he
        rwa [Nat.mod_eq_of_lt hlt] at he

/-- The text of one digit. -/
def dText (b : Nat) (low : Bool) (d : Nat) : List Int :=
  match digitText b low d with
  | .ok t => t
  | .error _ => []

/-- The text of a list of digits, the last of which is the lowest one. -/
def textOf (b : Nat) (low : Bool) : List Nat → List Int
  | [] => []
  | [d] => dText b low d
  | d :: ds => dText b false d ++ textOf b low ds

theorem textOf_append (b : Nat) (low : Bool) (ds : List Nat) (d : Nat) : textOf b low (ds ++ [d]) = ds.flatMap (dText b false) ++ dText b low d := by
  induction ds with
  | nil => rfl
  | cons x t ih =>
    have : textOf b low ((x :: t) ++ [d]) = dText b false x ++ textOf b low (t ++ [d]) := by
      cases t <;> rfl
    rw [this, ih]; simp

/-- The bases that have a table of digits. -/
def tabled (b : Nat) : Option (List Int) := if b ≤ 32 then some digitMap else baseMap b

theorem tables_long : ∀ b ≤ 85, 2 ≤ b → ∀ t, tabled b = some t → b ≤ t.length := by
  intro b hb hb2 t ht
  unfold tabled at ht
  split at ht
  · injection ht with ht; subst ht
    have : digitMap.length = 32 := by decide
    omega
  · unfold baseMap at ht
    split at ht
    · injection ht with ht; subst ht
      have : base36.length = 36 := by decide
      omega
    · split at ht
      · injection ht with ht; subst ht
        have : base58.length = 58 := by decide
        omega
      · split at ht
        · injection ht with ht; subst ht
          have : base64.length = 64 := by decide
          omega
        · split at ht
          · injection ht with ht; subst ht
            have : base85.length = 85 := by decide
            omega
          · cases ht

theorem tabled_le {b : Nat} {t : List Int} (h : tabled b = some t) : b ≤ 85 := by
  unfold tabled baseMap at h
  repeat' split at h
  all_goals first | omega | cases h

theorem tableAt_ok {t : List Int} {d : Nat} (h : d < t.length) : tableAt t d = .ok [t[d]] := by
  unfold tableAt
  rw [if_neg (by omega), Int.toNat_natCast, List.getElem?_eq_getElem h]

theorem digitText_ok {b : Nat} (hb : 2 ≤ b) {d : Nat} (hd : d < b) (low : Bool) : digitText b low d = .ok (dText b low d) := by
  have : ∃ t, digitText b low d = .ok t := by
    unfold digitText
    split
    · rename_i h
      have : digitMap.length = 32 := by decide
      exact ⟨_, tableAt_ok (by omega)⟩
    · rename_i h
      split
      · rename_i t ht
        have h1 : tabled b = some t := by unfold tabled; rw [if_neg h, ht]
        have := tables_long b (tabled_le h1) hb t h1
        exact ⟨_, tableAt_ok (by omega)⟩
      · exact ⟨_, rfl⟩
  obtain ⟨t, ht⟩ := this
  unfold dText
  rw [ht]

theorem printBase_ok {b : Nat} (hb : 2 ≤ b) : ∀ (k n : Nat) (low : Bool), n < k → printBase b k n low = .ok (textOf b low (digitsBy b k n)) := by
  intro k
  induction k with
  | zero => intro n low h; omega
  | succ k ih =>
    intro n low hn
    have e1 : (n : Int).tmod b = ((n % b : Nat) : Int) := rfl
    have e2 : (n : Int).tdiv b = ((n / b : Nat) : Int) := rfl
    rw [printBase]
    simp only [e1, e2]
    have hd : digitText b low ((n % b : Nat) : Int) = .ok (dText b low (n % b)) := digitText_ok hb (Nat.mod_lt _ (by omega)) low
    rw [digitsBy, textOf_append]
    by_cases h : n / b > 0
    · have hlt : n / b < n := Nat.div_lt_self (by
        rcases Nat.eq_zero_or_pos n with h0 | h0
        · subst h0; simp at h
        · exact h0) (by omega)
      rw [if_pos (by omega), if_pos h, ih (n / b) false (by omega)]
      dsimp only
      rw [hd]
      dsimp only
      have : textOf b false (digitsBy b k (n / b)) = (digitsBy b k (n / b)).flatMap (dText b false) := by
        have hne := (digitsBy_spec hb k (n / b) (by omega)).1
        obtain ⟨ds, d, hds⟩ : ∃ ds d, digitsBy b k (n / b) = ds ++ [d] :=
          ⟨_, _, (List.dropLast_concat_getLast hne).symm⟩
        rw [hds, textOf_append]; simp
      rw [this]
    · rw [if_neg (by omega), if_neg h]
      dsimp only
      rw [hd]
      rfl

/-- What `N` (and `B`, `O`, `H`) writes: the digits of the number, each as `dText` has it, and a space. -/
theorem print_run (s : St) {b n : Nat} (hb : 2 ≤ b) (l k) : ∃ s' ds, printNum (n : Int) b (s.setItems l k) = .ok ((), s') ∧ DigitsOf b n ds ∧
    Writes s s' (textOf b true ds ++ [32]) l := by
  refine ⟨_, digitsBy b (n + 1) n, ?_, digitsBy_spec hb _ _ (by omega), k, rfl⟩
  rw [printNum, if_pos (by omega), Int.natAbs_natCast, printBase_ok hb _ _ _ (by omega)]
  rfl

/-- **C55.** `N` takes a base and a number and writes the digits of the number in that base; nothing else changes. -/
theorem C55_print {s : St} (h : s.Lifo) {b n : Nat} {l : List Int} (hb : 2 ≤ b) (hb' : b < 4294967296) (hi : s.items = (b : Int) :: (n : Int) :: l) :
    ∃ s' ds, fpRun .BASE 78 s = .ok (.none, s') ∧ DigitsOf b n ds ∧ Writes s s' (textOf b true ds ++ [32]) l := by
  obtain ⟨s', ds, h1, h2, h3⟩ := print_run s hb l (s.top.ops + 1 + 1) (n := n)
  refine ⟨s', ds, ?_, h2, h3⟩
  show basePrintN s = _
  conv => lhs; rw [← setItems_self h, hi]
  have : toU32 (b : Int) = b := by unfold toU32; omega
  rw [basePrintN, bind_ok (popTop_head h _ _ _), bind_ok (popTop_head h _ _ _), this, bind_ok h1]
  rfl

/-- **C55.** `B`, `O` and `H` do so in base 2, 8 and 16. -/
theorem C55_print_fixed {s : St} (h : s.Lifo) {n : Nat} {l : List Int} (hi : s.items = (n : Int) :: l) {c : Int} {b : Nat}
    (hc : (c, b) ∈ [(66, 2), (79, 8), (72, 16)]) :
    ∃ s' ds, fpRun .BASE c s = .ok (.none, s') ∧ DigitsOf b n ds ∧ Writes s s' (textOf b true ds ++ [32]) l := by
  have key : ∀ b, 2 ≤ b → ∃ s' ds, basePrint b s = .ok (.none, s') ∧ DigitsOf b n ds ∧ Writes s s' (textOf b true ds ++ [32]) l := by
    intro b hb
    obtain ⟨s', ds, h1, h2, h3⟩ := print_run s hb l (s.top.ops + 1) (n := n)
    refine ⟨s', ds, ?_, h2, h3⟩
    conv => lhs; rw [← setItems_self h, hi]
    rw [basePrint, bind_ok (popTop_head h _ _ _), bind_ok h1]
    rfl
  simp only [List.mem_cons, Prod.mk.injEq, List.not_mem_nil, or_false] at hc
  rcases hc with ⟨rfl, rfl⟩ | ⟨rfl, rfl⟩ | ⟨rfl, rfl⟩
  · exact key 2 (by decide)
  · exact key 8 (by decide)
  · exact key 16 (by decide)

/-! ### Reading -/

theorem dText_map {b : Nat} (hb : b ≤ 32) {d : Nat} (hd : d < b) (low : Bool) : dText b low d = [digitMap.getD d 0] := by
  have hl : digitMap.length = 32 := by decide
  unfold dText digitText
  rw [if_pos hb, tableAt_ok (show d < digitMap.length by omega)]
  simp [show d < digitMap.length by omega]

theorem textOf_map {b : Nat} (hb : b ≤ 32) (low : Bool) (ds : List Nat) (hd : ∀ d ∈ ds, d < b) : textOf b low ds = ds.map (digitMap.getD · 0) := by
  induction ds with
  | nil => rfl
  | cons x t ih =>
    have hx := hd x List.mem_cons_self
    have ih := ih fun d h => hd d (List.mem_cons_of_mem _ h)
    cases t with
    | nil => exact dText_map hb hx low
    | cons y t =>
      rw [textOf, dText_map hb hx, ih]
      · rfl
      · exact fun h => nomatch h

/-- Looking up a digit of the table finds it, in any base that has it. -/
theorem findDigit_ok : ∀ b ≤ 32, ∀ d < b, findDigit (digitMap.getD d 0) (b + 1) 0 = .ok (some d) := by
  have h : ∀ b ∈ List.range 33, ∀ d ∈ List.range b, (match findDigit (digitMap.getD d 0) (b + 1) 0 with | .ok x => x | .error _ => none) = some d := by
    decide +kernel
  intro b hb d hd
  have := h b (List.mem_range.2 (by omega)) d (List.mem_range.2 hd)
  split at this
  · rename_i h; rw [h, this]
  · cases this

theorem upper_digit : ∀ d, upperByte (digitMap.getD d 0) = digitMap.getD d 0 := by
  intro d
  by_cases h : d < 32
  · have : ∀ d < 32, upperByte (digitMap.getD d 0) = digitMap.getD d 0 := by decide +kernel
    exact this d h
  · have hl : digitMap.length = 32 := by decide
    rw [List.getD_eq_getElem?_getD, List.getElem?_eq_none (by omega)]
    rfl

theorem foldl_ge {b : Nat} (hb : 1 ≤ b) (ds : List Nat) (a : Nat) : a ≤ ds.foldl (fun a d => a * b + d) a := by
  induction ds generalizing a with
  | nil => exact Nat.le_refl _
  | cons d t ih =>
    rw [List.foldl_cons]
    refine Nat.le_trans ?_ (ih _)
    have := Nat.mul_le_mul_left a hb
    omega

theorem readBase_ok {b : Nat} (hb : 2 ≤ b) (hb' : b ≤ 32) (ds : List Nat) (hne : ds ≠ []) (hd : ∀ d ∈ ds, d < b) (a : Nat)
    (hv : (ds.foldl (fun a d => a * b + d) a : Nat) ≤ i64Max) :
    readBase b (a : Int) (ds.map (digitMap.getD · 0)) = .ok ((ds.foldl (fun a d => a * b + d) a : Nat) : Int) := by
  induction ds generalizing a with
  | nil => exact absurd rfl hne
  | cons d t ih =>
    have hd0 := hd d List.mem_cons_self
    rw [List.foldl_cons] at hv
    have h0 := foldl_ge (show 1 ≤ b by omega) t (a * b + d)
    have h1 : ((a * b + d : Nat) : Int) ≤ i64Max := by omega
    have h2 : ck ((a : Int) * b) = .ok ((a * b : Nat) : Int) := by
      have e : (a : Int) * b = ((a * b : Nat) : Int) := by simp
      rw [e, ck, if_pos]
      unfold InI64 i64Min i64Max at *
      omega
    have h3 : toI64 (((a * b : Nat) : Int) + (d : Int)) = ((a * b + d : Nat) : Int) := by
      have e : ((a * b : Nat) : Int) + (d : Int) = ((a * b + d : Nat) : Int) := by simp
      rw [e]
      unfold toI64 i64Max at *
      exact Int.bmod_eq_of_le (by omega) (by omega)
    rw [List.map_cons, readBase, findDigit_ok b hb' d hd0]
    simp only [h2, h3]
    cases t with
    | nil => rfl
    | cons y t =>
      simp only [List.map_cons]
      have e : ∀ l : List Nat, (l.map (digitMap.getD · 0)).map upperByte = l.map (digitMap.getD · 0) := by
        intro l
        rw [List.map_map]
        exact List.map_congr_left fun d _ => upper_digit d
      rw [e, upper_digit]
      exact ih (fun h => nomatch h) (fun d h => hd d (List.mem_cons_of_mem _ h)) _ hv

/-- The blank characters that `I` skips before a number. -/
def IsBlank (c : Int) : Prop := c = 32 ∨ 9 ≤ c ∧ c ≤ 13

theorem digit_not_space : ∀ d < 32, isSpaceByte (digitMap.getD d 0) = false := by decide +kernel

theorem digit_is_char : ∀ d < 32, decide (-1 ≤ toChar (digitMap.getD d 0)) = true := by decide +kernel

theorem readWord_ok {blank word : List Int} (hb : ∀ c ∈ blank, IsBlank c) (hne : word ≠ []) (hw : ∀ c ∈ word, isSpaceByte c = false) (c0 : Int)
    (hc : IsBlank c0) (rest : List Int) : readWord (blank ++ word ++ c0 :: rest) = (word, c0 :: rest) := by
  have hb' : ∀ c ∈ blank, isSpaceByte c = true := fun c hc => by
    have := hb c hc; unfold IsBlank at this; unfold isSpaceByte; simpa using this
  have hc' : isSpaceByte c0 = true := by unfold IsBlank at hc; unfold isSpaceByte; simpa using hc
  have h1 : (blank ++ word ++ c0 :: rest).dropWhile isSpaceByte = word ++ c0 :: rest := by
    rw [List.append_assoc, List.dropWhile_append_of_pos hb']
    cases word with
    | nil => exact absurd rfl hne
    | cons x t => rw [List.cons_append, List.dropWhile_cons_of_neg (by rw [hw x List.mem_cons_self]; decide)]
  unfold readWord
  dsimp only
  rw [h1, List.takeWhile_append_of_pos (fun c h => by rw [hw c h]; rfl), List.dropWhile_append_of_pos (fun c h => by rw [hw c h]; rfl),
    List.takeWhile_cons_of_neg (by rw [hc']; decide), List.dropWhile_cons_of_neg (by rw [hc']; decide), List.append_nil]

/-- **C55.** A number `n` written with `N` in a base from 2 to 32 — `text` is what it wrote, `hs` says so — reads back the same with `I`: `t` is any state in
which the input goes on, after blanks, with that text. -/
theorem C55_reads_back {s s' t : St} (hl : s.Lifo) (ht : t.Lifo) {b n : Nat} {l l' blank text rest : List Int} (hb : 2 ≤ b) (hb' : b ≤ 32) (hn : (n : Int) ≤ i64Max)
    (hi : s.items = (b : Int) :: (n : Int) :: l) (hs : fpRun .BASE 78 s = .ok (.none, s')) (hw : s'.g.eff = s.g.eff ++ [.out text])
    (hti : t.items = (b : Int) :: l') (hbl : ∀ c ∈ blank, IsBlank c) (hin : t.g.inp = blank ++ text ++ rest) :
    ∃ t' k, fpRun .BASE 73 t = .ok (.none, t') ∧ t' = (t.setG { t.g with inp := 32 :: rest }).setItems ((n : Int) :: l') k := by
  obtain ⟨s'', ds, h1, ⟨hne, hd, hv, -⟩, k, h2⟩ := C55_print hl hb (by omega) hi
  rw [hs] at h1
  injection h1 with h1
  injection h1 with _ h1
  subst h1
  have htext : text = textOf b true ds ++ [32] := by
    have : s'.g.eff = s.g.eff ++ [.out (textOf b true ds ++ [32])] := by rw [h2]; rfl
    rw [this] at hw
    have := List.append_cancel_left hw
    injection this with this
    injection this with this
    exact this.symm
  rw [textOf_map hb' true ds hd] at htext
  subst htext
  have hsp : ∀ c ∈ ds.map (digitMap.getD · 0), isSpaceByte c = false := by
    intro c hc
    obtain ⟨d, hdm, rfl⟩ := List.mem_map.1 hc
    have := hd d hdm
    exact digit_not_space d (by omega)
  have hword : readWord t.g.inp = (ds.map (digitMap.getD · 0), 32 :: rest) := by
    have := readWord_ok hbl (by simpa using hne) hsp 32 (.inl rfl) rest
    rw [hin, ← this]; simp
  refine ⟨_, t.top.ops + 1 + 1, ?_, rfl⟩
  have hread : ∀ k, readNum b (t.setItems l' k) = .ok ((n : Int), (t.setG { t.g with inp := 32 :: rest }).setItems l' k) := by
    intro k
    rw [readNum, bind_ok (get_run _)]
    dsimp only
    have e : (t.setItems l' k).g.inp = t.g.inp := rfl
    rw [e, hword]
    rw [bind_ok (modG_run _ _), if_neg (by omega), if_pos hb']
    have := readBase_ok hb hb' ds hne hd 0 (by show ((valueIn b ds : Nat) : Int) ≤ _; rw [hv]; exact hn)
    have e2 : ((0 : Nat) : Int) = 0 := rfl
    rw [e2] at this
    rw [readDigits, if_pos (List.all_eq_true.2 fun c hc => by
      obtain ⟨d, hdm, rfl⟩ := List.mem_map.1 hc
      exact digit_is_char d (by have := hd d hdm; omega)), this]
    show Except.ok (((valueIn b ds : Nat) : Int), _) = _
    rw [hv]
    rfl
  show baseRead t = _
  conv => lhs; rw [← setItems_self ht, hti]
  have : toU32 (b : Int) = b := by unfold toU32; omega
  rw [baseRead, bind_ok (popTop_head ht _ _ _), this, bind_ok (hread _), bind_ok (pushTop_run (s := t.setG { t.g with inp := 32 :: rest }) ht _ _ _)]
  rfl

/-! ### Different numbers -/

/-- Texts without commas, separated by commas. -/
theorem comma_split {a b x y : List Int} (ha : 44 ∉ a) (hb : 44 ∉ b) (h : a ++ 44 :: x = b ++ 44 :: y) : a = b ∧ x = y := by
  induction a generalizing b with
  | nil =>
    cases b with
    | nil => exact ⟨rfl, by simpa using h⟩
    | cons c t =>
      rw [List.nil_append, List.cons_append] at h
      injection h with h _
      exact absurd h (fun h => hb (h ▸ List.mem_cons_self))
  | cons c t ih =>
    cases b with
    | nil =>
      rw [List.nil_append, List.cons_append] at h
      injection h with h _
      exact absurd h.symm (fun h => ha (h ▸ List.mem_cons_self))
    | cons d u =>
      rw [List.cons_append, List.cons_append] at h
      injection h with h1 h2
      obtain ⟨h3, h4⟩ := ih (fun h => ha (List.mem_cons_of_mem _ h)) (fun h => hb (List.mem_cons_of_mem _ h)) h2
      exact ⟨by rw [h1, h3], h4⟩

theorem decimal_no_comma (n : Nat) : 44 ∉ decimal n := by
  intro h
  rcases decimal_spec n with ⟨-, hd, -⟩ | ⟨hx, -⟩
  · have := hd.2.1 44 h; omega
  · omega

theorem decimal_inj {n m : Nat} (h : decimal n = decimal m) : n = m := by
  rcases decimal_spec n with ⟨-, -, h1⟩ | ⟨hx, -⟩
  · rcases decimal_spec m with ⟨-, -, h2⟩ | ⟨hx, -⟩
    · rw [h, h2] at h1; omega
    · omega
  · omega

/-- The tables with different characters for different digits, which all but that of base 85 are. -/
theorem tables_nodup {b : Nat} {t : List Int} (h : tabled b = some t) (hb : b ≠ 85) : t.Nodup := by
  unfold tabled baseMap at h
  have h1 : digitMap.Nodup := by decide +kernel
  have h2 : base36.Nodup := by decide +kernel
  have h3 : base58.Nodup := by decide +kernel
  have h4 : base64.Nodup := by decide +kernel
  repeat' split at h
  all_goals first
    | omega
    | (cases h; done)
    | (cases h; assumption)

theorem dText_table {b : Nat} {t : List Int} (h : tabled b = some t) {d : Nat} (hd : d < t.length) (low : Bool) : dText b low d = [t[d]] := by
  unfold tabled at h
  unfold dText digitText
  split at h
  · rename_i hb
    cases h
    rw [if_pos hb, tableAt_ok hd]
  · rename_i hb
    rw [if_neg hb, h]
    dsimp only
    rw [tableAt_ok hd]

theorem dText_plain {b : Nat} (h : tabled b = none) (d : Nat) (low : Bool) : dText b low d = decimal d ++ if low then [] else [44] := by
  unfold tabled at h
  unfold dText digitText
  split at h
  · cases h
  · rename_i hb
    rw [if_neg hb, h]

theorem textOf_inj {b : Nat} (hb : 2 ≤ b) (h85 : b ≠ 85) : ∀ (xs ys : List Nat), (∀ d ∈ xs, d < b) → (∀ d ∈ ys, d < b) → xs ≠ [] → ys ≠ [] →
    textOf b true xs = textOf b true ys → xs = ys := by
  cases ht : tabled b with
  | some t =>
    have hl := tables_long b (tabled_le ht) hb t ht
    have hn := tables_nodup ht h85
    have hm : ∀ xs : List Nat, (∀ d ∈ xs, d < b) → textOf b true xs = xs.map (t.getD · 0) := by
      intro xs
      induction xs with
      | nil => intro _; rfl
      | cons x l ih =>
        intro hd
        have hx := hd x List.mem_cons_self
        have e : ∀ low, dText b low x = [t.getD x 0] := fun low => by
          rw [dText_table ht (show x < t.length by omega)]
          simp [show x < t.length by omega]
        have ih := ih fun d h => hd d (List.mem_cons_of_mem _ h)
        cases l with
        | nil => exact e _
        | cons y l => rw [textOf, e, ih]; rfl; exact fun h => nomatch h
    intro xs ys hx hy _ _ he
    rw [hm xs hx, hm ys hy] at he
    clear hm
    induction xs generalizing ys with
    | nil => cases ys with | nil => rfl | cons y l => simp at he
    | cons x l ih =>
      cases ys with
      | nil => simp at he
      | cons y m =>
        simp only [List.map_cons, List.cons.injEq] at he
        have h1 := hx x List.mem_cons_self
        have h2 := hy y List.mem_cons_self
        have h3 : x = y := by
          have e1 : t.getD x 0 = t[x] := by simp [show x < t.length by omega]
          have e2 : t.getD y 0 = t[y] := by simp [show y < t.length by omega]
          rw [e1, e2] at he
          exact (List.getElem_inj hn).1 he.1
        by_cases hl0 : l = []
        · subst hl0
          have : m = [] := by cases m with | nil => rfl | cons _ _ => simp at he
          rw [h3, this]
        · have hm0 : m ≠ [] := by rintro rfl; cases l with | nil => exact hl0 rfl | cons _ _ => simp at he
          rw [h3, ih m (fun d h => hx d (List.mem_cons_of_mem _ h)) (fun d h => hy d (List.mem_cons_of_mem _ h)) hl0 hm0 he.2]
  | none =>
    have h1 : ∀ d, dText b false d = decimal d ++ [44] := fun d => dText_plain ht d false
    have h0 : ∀ d, dText b true d = decimal d := fun d => by rw [dText_plain ht d true]; simp
    have e1 : ∀ x, textOf b true [x] = decimal x := fun x => h0 x
    have e2 : ∀ x y l, textOf b true (x :: y :: l) = decimal x ++ 44 :: textOf b true (y :: l) := fun x y l => by
      rw [textOf, h1]
      · simp
      · exact fun h => nomatch h
    intro xs
    induction xs with
    | nil => intro ys _ _ h; exact absurd rfl h
    | cons x l ih =>
      intro ys hx hy _ hys he
      cases ys with
      | nil => exact absurd rfl hys
      | cons y m =>
        cases l with
        | nil =>
          cases m with
          | nil => rw [e1, e1] at he; rw [decimal_inj he]
          | cons z m =>
            rw [e1, e2] at he
            exact absurd (he ▸ List.mem_append_right _ List.mem_cons_self) (decimal_no_comma x)
        | cons w l =>
          cases m with
          | nil =>
            rw [e1, e2] at he
            exact absurd (he.symm ▸ List.mem_append_right _ List.mem_cons_self) (decimal_no_comma y)
          | cons z m =>
            rw [e2, e2] at he
            obtain ⟨h2, h3⟩ := comma_split (decimal_no_comma x) (decimal_no_comma y) he
            rw [decimal_inj h2, ih (z :: m) (fun d h => hx d (List.mem_cons_of_mem _ h)) (fun d h => hy d (List.mem_cons_of_mem _ h))
              (fun h => nomatch h) (fun h => nomatch h) h3]

/-- **C55.** Different numbers print differently in every base from 2 up, but 85: if `N` wrote the same for `n` and for `m`, they are the same. -/
theorem C55_distinct_partial {s s' t t' : St} (hs : s.Lifo) (ht : t.Lifo) {b n m : Nat} {l l' text : List Int} (hb : 2 ≤ b) (hb' : b < 4294967296) (h85 : b ≠ 85)
    (hi : s.items = (b : Int) :: (n : Int) :: l) (hti : t.items = (b : Int) :: (m : Int) :: l')
    (h : fpRun .BASE 78 s = .ok (.none, s')) (h' : fpRun .BASE 78 t = .ok (.none, t'))
    (hw : s'.g.eff = s.g.eff ++ [.out text]) (hw' : t'.g.eff = t.g.eff ++ [.out text]) : n = m := by
  have key : ∀ {s s' : St} {n : Nat} {l}, s.Lifo → s.items = (b : Int) :: (n : Int) :: l → fpRun .BASE 78 s = .ok (.none, s') →
      s'.g.eff = s.g.eff ++ [.out text] → ∃ ds, DigitsOf b n ds ∧ text = textOf b true ds ++ [32] := by
    intro s s' n l hs hi h hw
    obtain ⟨s'', ds, h1, h2, k, h3⟩ := C55_print hs hb hb' hi
    rw [h] at h1
    injection h1 with h1
    injection h1 with _ h1
    subst h1
    refine ⟨ds, h2, ?_⟩
    have : s'.g.eff = s.g.eff ++ [.out (textOf b true ds ++ [32])] := by rw [h3]; rfl
    rw [this] at hw
    have := List.append_cancel_left hw
    injection this with this
    injection this with this
    exact this.symm
  obtain ⟨xs, hx, e1⟩ := key hs hi h hw
  obtain ⟨ys, hy, e2⟩ := key ht hti h' hw'
  rw [e1] at e2
  have := textOf_inj hb h85 xs ys hx.2.1 hy.2.1 hx.1 hy.1 (List.append_cancel_right e2)
  subst this
  rw [← hx.2.2.1, ← hy.2.2.1]

/-- **C55 does not hold in base 85**: 81 and 83 both print as `{`. -/
theorem C55_false_in_base_85 :
    (match fpRun .BASE 78 ((machine []).setItems [85, 81] 0) with | .ok (_, s) => some s.g.eff | .error _ => none) = some [.out [123, 32]] ∧
    (match fpRun .BASE 78 ((machine []).setItems [85, 83] 0) with | .ok (_, s) => some s.g.eff | .error _ => none) = some [.out [123, 32]] := by
  decide +kernel

/-! ### Base 1 and below, negative numbers, what `I` should not read -/

/-- **C55.** In base 1 a number is written as that many zeros. -/
theorem C55_unary {s : St} (h : s.Lifo) {n : Nat} {l : List Int} (hi : s.items = 1 :: (n : Int) :: l) :
    ∃ s', fpRun .BASE 78 s = .ok (.none, s') ∧ Writes s s' (List.replicate n 48 ++ [32]) l := by
  refine ⟨_, ?_, s.top.ops + 1 + 1, rfl⟩
  show basePrintN s = _
  conv => lhs; rw [← setItems_self h, hi]
  rw [basePrintN, bind_ok (popTop_head h _ _ _), bind_ok (popTop_head h _ _ _)]
  have : toU32 1 = 1 := by decide
  rw [this]
  show (printNum (n : Int) 1 >>= _) _ = _
  rw [printNum, if_neg (by decide), Int.toNat_natCast]
  rfl

/-- **C55.** That reads back the same, unless it is 0: then there is nothing to read, and `I` takes whatever comes next. -/
theorem C55_unary_reads_back {t : St} (ht : t.Lifo) {n : Nat} {l' blank rest : List Int} (hn : 0 < n) (hti : t.items = 1 :: l')
    (hbl : ∀ c ∈ blank, IsBlank c) (hin : t.g.inp = blank ++ List.replicate n 48 ++ 32 :: rest) :
    ∃ t' k, fpRun .BASE 73 t = .ok (.none, t') ∧ t' = (t.setG { t.g with inp := 32 :: rest }).setItems ((n : Int) :: l') k := by
  have hword : readWord t.g.inp = (List.replicate n 48, 32 :: rest) := by
    rw [hin]
    exact readWord_ok hbl (by simpa using Nat.pos_iff_ne_zero.1 hn) (fun c hc => by rw [(List.mem_replicate.1 hc).2]; decide) 32 (.inl rfl) rest
  refine ⟨_, t.top.ops + 1 + 1, ?_, rfl⟩
  have hread : ∀ k, readNum 1 (t.setItems l' k) = .ok ((n : Int), (t.setG { t.g with inp := 32 :: rest }).setItems l' k) := by
    intro k
    rw [readNum, bind_ok (get_run _)]
    dsimp only
    have e : (t.setItems l' k).g.inp = t.g.inp := rfl
    rw [e, hword, bind_ok (modG_run _ _), if_pos (by decide)]
    simp [pure_run]
    rfl
  show baseRead t = _
  conv => lhs; rw [← setItems_self ht, hti]
  rw [baseRead, bind_ok (popTop_head ht _ _ _)]
  have : toU32 1 = 1 := by decide
  rw [this, bind_ok (hread _), bind_ok (pushTop_run (s := t.setG { t.g with inp := 32 :: rest }) ht _ _ _)]
  rfl

/-- Zero in base 1: written as a space only. If the input goes on with `ab`, `I` reads 2. -/
theorem C55_false_for_unary_zero :
    (match fpRun .BASE 78 ((machine []).setItems [1, 0] 0) with | .ok (_, s) => some s.g.eff | .error _ => none) = some [.out [32]] ∧
    (match fpRun .BASE 73 { (machine []).setItems [1] 0 with g.inp := [32, 97, 98] } with | .ok (_, s) => some s.items | .error _ => none) =
      some [2] := by decide +kernel

/-- Negative numbers index the table of digits below its start. -/
theorem C55_undefined_for_negative : (match fpRun .BASE 78 ((machine []).setItems [10, -1] 0) with | .ok _ => none | .error e => some e) =
    some .outOfRange := by decide +kernel

/-- `I` accepts a digit too many: 2 in base 2. In base 32 it looks past the end of its table for a character that is no digit. -/
theorem C55_reads_too_much :
    (match fpRun .BASE 73 { (machine []).setItems [2] 0 with g.inp := [50, 32] } with | .ok (_, s) => some s.items | .error _ => none) = some [2] ∧
    (match fpRun .BASE 73 { (machine []).setItems [32] 0 with g.inp := [33, 32] } with | .ok _ => none | .error e => some e) = some .outOfRange := by
  decide +kernel

/-! ### Examples -/

/-- 255 in base 16, and reading it again. -/
example : ((machine []).setItems [16, 255] 0).Lifo ∧ ((machine []).setItems [16, 255] 0).items = ((16 : Nat) : Int) :: ((255 : Nat) : Int) :: [] ∧
    ((255 : Nat) : Int) ≤ i64Max ∧
    (match fpRun .BASE 78 ((machine []).setItems [16, 255] 0) with | .ok (e, s) => e == .none && s.g.eff == [.out [70, 70, 32]] | .error _ => false) = true ∧
    (match fpRun .BASE 73 { (machine []).setItems [16] 0 with g.inp := [32, 70, 70, 32, 49] } with | .ok (_, s) => some s.items | .error _ => none) =
      some [255] := by decide +kernel

example : DigitsOf 16 255 [15, 15] := ⟨by decide, by decide, by decide, by decide⟩

end Funge
