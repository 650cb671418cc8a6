import Verif.Lemmas.Tick
import Verif.Props.C18_Jumps
/-!
# C20, C21, C22: string mode
-/
namespace Funge
open Exec IP

/-- The cells from the `i`-th on spell `text`. -/
def Spells (a : Nat → Int) (i : Nat) (text : List Int) : Prop := ∀ k (h : k < text.length), a (i + k) = text[k]

theorem Spells.head {a : Nat → Int} {i : Nat} {c : Int} {t : List Int} (h : Spells a i (c :: t)) : a i = c := h 0 (by simp)

theorem Spells.tail {a : Nat → Int} {i : Nat} {c : Int} {t : List Int} (h : Spells a i (c :: t)) : Spells a (i + 1) t := by
  intro k hk
  have := h (k + 1) (by simpa using hk)
  rw [show i + 1 + k = i + (k + 1) by omega, this]; rfl

/-- The runner of `s` is about to execute a `"` that starts a string: it is not in a string and the character has its usual meaning. -/
structure AtQuote (s : St) : Prop where
  lifo : s.Lifo
  pushes : s.PushesInts
  normal : s.cur.inString = false
  prev : s.cur.strPrev = 0
  quote : s.g.field.get s.cur.ip.pos = 34
  meaning : s.cur.getSem 34 = some ⟨.string, false⟩
  dive : hasMode s.g.cfg.mode modeDive = false

theorem opening_tick {s : St} (h : AtQuote s) (hf : 0 < s.g.fuel) :
    ∃ ip', Ahead s 1 ip' ∧ tick s = .ok ((), s.inText 34 0 ip' s.items s.top.ops) := by
  obtain ⟨ip', h1, h2⟩ := ahead_next (s := s) (m := 0) (ip1 := s.cur.ip) rfl
  refine ⟨ip', h2, ?_⟩
  have he : execute s.g.fuel (s.g.field.get s.cur.ip.pos) s = .ok (.none, s.setStr true 34 0) := by
    obtain ⟨k, hk⟩ : ∃ k, s.g.fuel = k + 1 := ⟨s.g.fuel - 1, by omega⟩
    rw [hk, h.quote]
    simp only [execute, h.normal, execNormal, h.meaning, h.dive, Bool.false_and]
    show Except.ok (Err.none, { s with cur := { s.cur with inString := true, strEnd := 34 } }) = _
    rw [St.setStr, ← h.prev]
  have := tick_none (s1 := s.setStr true 34 0) hf he h1
  rw [this, St.inText]
  have hself := setItems_self (s := (s.setStr true 34 0).setIP ip') h.lifo
  exact congrArg (fun x => Except.ok ((), x)) hself.symm

/-! ## C20 -/

theorem text_multispace {s : St} (h : AtQuote s) (hf : 0 < s.g.fuel) (hst : s.g.cfg.strings = .multispace) {a : Nat → Int}
    (ha : CellsAhead s a) : ∀ (text : List Int) (i : Nat) (ip : IP) (l : List Int) (n : Nat), Spells a i text → (∀ c ∈ text, c ≠ 34) →
      Ahead s i ip → ∃ ip' n', Ahead s (i + text.length) ip' ∧
        ticks text.length (s.inText 34 0 ip l n) = .ok ((), s.inText 34 0 ip' (text.reverse ++ l) n') := by
  intro text
  induction text with
  | nil => intro i ip l n _ _ hi; exact ⟨ip, n, hi, rfl⟩
  | cons c t ih =>
    intro i ip l n hs hno hi
    obtain ⟨ip1, h1, h2⟩ := ahead_next hi
    obtain ⟨ip', n', h3, h4⟩ := ih (i + 1) ip1 (c :: l) (n + 1) hs.tail (fun x hx => hno x (by simp [hx])) h2
    refine ⟨ip', n', by rw [List.length_cons, show i + (t.length + 1) = i + 1 + t.length by omega]; exact h3, ?_⟩
    have hc : (s.inText 34 0 ip l n).g.field.get (s.inText 34 0 ip l n).cur.ip.pos = c := (ha.eq hi).symm.trans hs.head
    have he : execute (s.inText 34 0 ip l n).g.fuel ((s.inText 34 0 ip l n).g.field.get (s.inText 34 0 ip l n).cur.ip.pos)
        (s.inText 34 0 ip l n) = .ok (.none, s.inText 34 0 ip (c :: l) (n + 1)) := by
      rw [hc, inText_g, execute_inText _ _ _ _ _ hf, execString_multispace h.lifo h.pushes hst _ _ _ _ _ (hno c (by simp))]
    show (tick >>= fun _ => ticks t.length) _ = _
    rw [bind_ok (tick_none (s := s.inText 34 0 ip l n) (s1 := s.inText 34 0 ip (c :: l) (n + 1)) hf he h1)]
    have h5 : (s.inText 34 0 ip (c :: l) (n + 1)).setIP ip1 = s.inText 34 0 ip1 (c :: l) (n + 1) := rfl
    rw [h5, h4]
    simp

theorem closing_tick {s : St} (hf : 0 < s.g.fuel) {a : Nat → Int} (ha : CellsAhead s a) (p : Int) {i : Nat} {ip : IP} (hi : Ahead s i ip)
    (hq : a i = 34) (l : List Int) (n : Nat) : ∃ ip', Ahead s (i + 1) ip' ∧
      tick (s.inText 34 p ip l n) = .ok ((), ((s.setStr false 34 0).setIP ip').setItems l n) := by
  obtain ⟨ip1, h1, h2⟩ := ahead_next hi
  refine ⟨ip1, h2, ?_⟩
  have hc : (s.inText 34 p ip l n).g.field.get (s.inText 34 p ip l n).cur.ip.pos = 34 := (ha.eq hi).symm.trans hq
  have he : execute (s.inText 34 p ip l n).g.fuel ((s.inText 34 p ip l n).g.field.get (s.inText 34 p ip l n).cur.ip.pos)
      (s.inText 34 p ip l n) = .ok (.none, ((s.setStr false 34 0).setIP ip).setItems l n) := by
    rw [hc, inText_g, execute_inText _ _ _ _ _ hf, execString_end]
  exact tick_none (s := s.inText 34 p ip l n) (s1 := ((s.setStr false 34 0).setIP ip).setItems l n) hf he h1

theorem ticks_add (m n : Nat) (s : St) : ticks (m + n) s = (ticks m >>= fun _ => ticks n) s := by
  induction m generalizing s with
  | zero => rw [Nat.zero_add]; rfl
  | succ m ih =>
    rw [Nat.add_right_comm]
    show (tick >>= fun _ => ticks (m + n)) s = ((tick >>= fun _ => ticks m) >>= fun _ => ticks n) s
    rw [bind_run, bind_run, bind_run]
    cases tick s with
    | error e => rfl
    | ok p => exact ih p.2

theorem ticks_snoc {m : Nat} {s s1 : St} (h : ticks m s = .ok ((), s1)) : ticks (m + 1) s = tick s1 := by
  rw [ticks_add, bind_ok h]
  show (tick >>= fun _ => pure ()) s1 = _
  rw [bind_run]
  cases tick s1 <;> rfl

/-- **C20** Befunge-93 strings: executing a quoted text pushes its characters one per tick, in order; the closing quote ends string mode.
After `k + 1` ticks the first `k` characters have been pushed; after two ticks more than there are characters the runner is back in normal
mode after the closing quote. Nothing but the IP's position and the stack has changed. -/
theorem C20_string (s : St) (h : AtQuote s) (hf : 0 < s.g.fuel) (hst : s.g.cfg.strings = .multispace) (a : Nat → Int) (ha : CellsAhead s a)
    (text : List Int) (hno : ∀ c ∈ text, c ≠ 34) (htext : Spells a 1 text) (hend : a (text.length + 1) = 34) :
    (∀ k, k ≤ text.length → ∃ ip' s', Ahead s (k + 1) ip' ∧ ticks (k + 1) s = .ok ((), s') ∧
      ((s.setStr true 34 0).setIP ip').Leaves s' ((text.take k).reverse ++ s.items)) ∧
    ∃ ip' s', Ahead s (text.length + 2) ip' ∧ ticks (text.length + 2) s = .ok ((), s') ∧
      ((s.setStr false 34 0).setIP ip').Leaves s' (text.reverse ++ s.items) := by
  obtain ⟨ip1, h1, h2⟩ := opening_tick h hf
  have h3 : ∀ k, k ≤ text.length → ∃ ip' n', Ahead s (k + 1) ip' ∧
      ticks (k + 1) s = .ok ((), s.inText 34 0 ip' ((text.take k).reverse ++ s.items) n') := by
    intro k hk
    obtain ⟨ip', n', e1, e2⟩ := text_multispace h hf hst ha (text.take k) 1 ip1 s.items s.top.ops
      (fun j hj => by
        have hj' : j < text.length := by rw [List.length_take] at hj; omega
        rw [htext j hj']; simp)
      (fun c hc => hno c (List.mem_of_mem_take hc)) h1
    rw [List.length_take, Nat.min_eq_left hk] at e1 e2
    refine ⟨ip', n', by rw [Nat.add_comm]; exact e1, ?_⟩
    show (tick >>= fun _ => ticks k) s = _
    rw [bind_ok h2, e2]
  refine ⟨?_, ?_⟩
  · intro k hk
    obtain ⟨ip', n', e1, e2⟩ := h3 k hk
    exact ⟨ip', _, e1, e2, ⟨n', rfl⟩⟩
  · obtain ⟨ip', n', e1, e2⟩ := h3 text.length (Nat.le_refl _)
    rw [List.take_length] at e2
    obtain ⟨ip2, f1, f2⟩ := closing_tick hf ha 0 e1 hend (text.reverse ++ s.items) n'
    exact ⟨ip2, _, f1, (ticks_snoc e2).trans f2, ⟨n', rfl⟩⟩

/-- A Befunge-93 program `"a +"`, with multispace strings. -/
example : AtQuote (machineWith { dims := 2, standard := 93, strings := .multispace } [[34, 97, 32, 43, 34]]) :=
  ⟨by decide +kernel, ⟨.une93, [.be93], by decide +kernel⟩, by decide +kernel, by decide +kernel, by decide +kernel, by decide +kernel,
    by decide +kernel⟩

example : stackAfter (machineWith { dims := 2, standard := 93, strings := .multispace } [[34, 97, 32, 32, 43, 34]]) 6 =
    some [43, 32, 32, 97] := by decide +kernel

/-! ## C21 -/

/-- White space in a string. -/
def Blank (c : Int) : Bool := c == 32 || c == 9 || c == 10 || c == 11 || c == 12 || c == 13

theorem isSpaceByte_blank (c : Int) : isSpaceByte c = Blank c := by
  unfold isSpaceByte Blank
  rw [Bool.eq_iff_iff]
  simp only [decide_eq_true_eq, Bool.or_eq_true, beq_iff_eq]
  omega

/-- The text with every run of white space replaced by its first character. -/
def collapse : List Int → List Int
  | [] => []
  | c :: t => if Blank c then c :: collapse (t.dropWhile Blank) else c :: collapse t
termination_by t => t.length
decreasing_by
  · have := (List.dropWhile_sublist Blank (l := t)).length_le; simp; omega
  · simp

example : collapse [97, 32, 32, 9, 98, 32] = [97, 32, 98, 32] := by decide +kernel

/-- The same, remembering whether the previous character was white space. -/
def squeeze : Bool → List Int → List Int
  | _, [] => []
  | b, c :: t => if Blank c && b then squeeze true t else c :: squeeze (Blank c) t

theorem squeeze_eq (t : List Int) : squeeze false t = collapse t ∧ squeeze true t = collapse (t.dropWhile Blank) := by
  induction t with
  | nil => exact ⟨by rw [collapse]; rfl, by simp [squeeze, collapse]⟩
  | cons c t ih =>
    cases hb : Blank c with
    | true =>
      refine ⟨?_, ?_⟩
      · rw [squeeze, collapse, hb, ih.2]; simp
      · rw [squeeze, hb, ih.2]; simp [hb]
    | false =>
      refine ⟨?_, ?_⟩
      · rw [squeeze, collapse, hb, ih.1]; simp
      · have hd : (c :: t).dropWhile Blank = c :: t := by simp [hb]
        rw [hd, squeeze, hb, ih.1, collapse, hb]; rfl

theorem text_sgml {s : St} (h : AtQuote s) (hst : s.g.cfg.strings = .sgml) {a : Nat → Int} (ha : CellsAhead s a) :
    ∀ (text : List Int) (i : Nat) (ip : IP) (l : List Int) (n : Nat) (p : Int) (f : Nat), Spells a i text →
      (∀ c ∈ text, c ≠ 34 ∧ 0 ≤ c ∧ c ≤ 255) → (0 ≤ p ∧ p ≤ 255) → a (i + text.length) = 34 → Ahead s i ip → text.length < f →
      text.length < s.g.fuel → ∃ ip' n', Ahead s (i + text.length + 1) ip' ∧
        (tickLoop f >>= fun _ => ticks (squeeze (Blank p) text).length) (s.inText 34 p ip l n) =
          .ok ((), ((s.setStr false 34 0).setIP ip').setItems ((squeeze (Blank p) text).reverse ++ l) n') := by
  intro text
  induction text with
  | nil =>
    intro i ip l n p f _ _ _ hend hi hf hf'
    obtain ⟨ip1, h1, h2⟩ := ahead_next hi
    obtain ⟨f, rfl⟩ : ∃ g, f = g + 1 := ⟨f - 1, by omega⟩
    refine ⟨ip1, n, h2, ?_⟩
    have hc : (s.inText 34 p ip l n).g.field.get (s.inText 34 p ip l n).cur.ip.pos = 34 := (ha.eq hi).symm.trans hend
    have he : execute (s.inText 34 p ip l n).g.fuel ((s.inText 34 p ip l n).g.field.get (s.inText 34 p ip l n).cur.ip.pos)
        (s.inText 34 p ip l n) = .ok (.none, ((s.setStr false 34 0).setIP ip).setItems l n) := by
      rw [hc, inText_g, execute_inText _ _ _ _ _ hf', execString_end]
    rw [bind_ok (tickLoop_none (s := s.inText 34 p ip l n) (s1 := ((s.setStr false 34 0).setIP ip).setItems l n) he h1)]
    rfl
  | cons c t ih =>
    intro i ip l n p f hs hno hp hend hi hf hf'
    obtain ⟨ip1, h1, h2⟩ := ahead_next hi
    obtain ⟨f, rfl⟩ : ∃ g, f = g + 1 := ⟨f - 1, by omega⟩
    rw [List.length_cons] at hend hf hf'
    have hlen : i + (t.length + 1) = i + 1 + t.length := by omega
    rw [hlen] at hend
    obtain ⟨hcq, hcr⟩ := hno c (by simp)
    have hc : (s.inText 34 p ip l n).g.field.get (s.inText 34 p ip l n).cur.ip.pos = c := (ha.eq hi).symm.trans hs.head
    have hex := execString_sgml h.lifo h.pushes hst 34 p ip l n hcq hcr hp
    rw [isSpaceByte_blank, isSpaceByte_blank] at hex
    rw [List.length_cons, hlen]
    cases hb : Blank c && Blank p with
    | true =>
      rw [hb, if_pos rfl] at hex
      have he : execute (s.inText 34 p ip l n).g.fuel ((s.inText 34 p ip l n).g.field.get (s.inText 34 p ip l n).cur.ip.pos)
          (s.inText 34 p ip l n) = .ok (.skip, s.inText 34 p ip l n) := by
        rw [hc, inText_g, execute_inText _ _ _ _ _ (by omega), hex]
      obtain ⟨ip', n', e1, e2⟩ := ih (i + 1) ip1 l n p f hs.tail (fun x hx => hno x (by simp [hx])) hp hend h2 (by omega) (by omega)
      refine ⟨ip', n', e1, ?_⟩
      have hbp : Blank p = true := by simp at hb; exact hb.2
      have hsq : squeeze (Blank p) (c :: t) = squeeze (Blank p) t := by rw [squeeze, hb, if_pos rfl, hbp]
      rw [hsq, ← e2, bind_run, bind_run, tickLoop_skip (s := s.inText 34 p ip l n) (s1 := s.inText 34 p ip l n) he h1]
      rfl
    | false =>
      rw [hb] at hex
      have he : execute (s.inText 34 p ip l n).g.fuel ((s.inText 34 p ip l n).g.field.get (s.inText 34 p ip l n).cur.ip.pos)
          (s.inText 34 p ip l n) = .ok (.none, s.inText 34 c ip (c :: l) (n + 1)) := by
        rw [hc, inText_g, execute_inText _ _ _ _ _ (by omega), hex]; rfl
      obtain ⟨ip', n', e1, e2⟩ := ih (i + 1) ip1 (c :: l) (n + 1) c s.g.fuel hs.tail (fun x hx => hno x (by simp [hx])) hcr hend h2
        (by omega) (by omega)
      refine ⟨ip', n', e1, ?_⟩
      have hsq : squeeze (Blank p) (c :: t) = c :: squeeze (Blank c) t := by rw [squeeze, hb]; rfl
      rw [hsq, bind_ok (tickLoop_none (s := s.inText 34 p ip l n) (s1 := s.inText 34 c ip (c :: l) (n + 1)) he h1)]
      have h5 : (s.inText 34 c ip (c :: l) (n + 1)).setIP ip1 = s.inText 34 c ip1 (c :: l) (n + 1) := rfl
      rw [h5]
      show (tick >>= fun _ => ticks (squeeze (Blank c) t).length) _ = _
      rw [List.reverse_cons, List.append_assoc]
      exact e2

/-- **C21** SGML strings (the default of Funge-98): a quoted text of bytes is pushed with every run of white space replaced by its first
character, one tick for each character pushed and one for each quote. -/
theorem C21_sgml_string (s : St) (h : AtQuote s) (hst : s.g.cfg.strings = .sgml) (a : Nat → Int) (ha : CellsAhead s a)
    (text : List Int) (hno : ∀ c ∈ text, c ≠ 34 ∧ 0 ≤ c ∧ c ≤ 255) (htext : Spells a 1 text) (hend : a (text.length + 1) = 34)
    (hf : text.length < s.g.fuel) :
    ∃ ip' s', Ahead s (text.length + 2) ip' ∧ ticks ((collapse text).length + 2) s = .ok ((), s') ∧
      ((s.setStr false 34 0).setIP ip').Leaves s' ((collapse text).reverse ++ s.items) := by
  obtain ⟨ip1, h1, h2⟩ := opening_tick h (by omega)
  obtain ⟨ip', n', e1, e2⟩ := text_sgml h hst ha text 1 ip1 s.items s.top.ops 0 s.g.fuel htext hno (by omega)
    (by rw [Nat.add_comm]; exact hend) h1 hf hf
  have hb : Blank 0 = false := by decide
  rw [hb, (squeeze_eq text).1] at e2
  refine ⟨ip', _, by rw [show text.length + 2 = 1 + text.length + 1 by omega]; exact e1, ?_, ⟨n', rfl⟩⟩
  show (tick >>= fun _ => ticks ((collapse text).length + 1)) s = _
  rw [bind_ok h2]
  exact e2

/-- `"a  b"` in Befunge-98. -/
example : AtQuote (machine [34, 97, 32, 32, 98, 34]) :=
  ⟨by decide +kernel, ⟨.une93, _, rfl, by decide, by decide⟩, by decide +kernel, by decide +kernel, by decide +kernel, by decide +kernel,
    by decide +kernel⟩

example : stackAfter (machine [34, 97, 32, 32, 98, 34]) 5 = some [98, 32, 97] := by decide +kernel

/-- **C21** does not extend to texts with other cells: a byte of 128 or more (which the loader makes negative, e.g. every non-ASCII character
of a UTF-8 source) in an SGML string is passed to `isspace`, which is undefined. -/
theorem C21_undefined_for_non_ascii (s : St) (hst : s.g.cfg.strings = .sgml) (ip : IP) (l : List Int) (n : Nat) (p c : Int)
    (hc : -128 ≤ c ∧ c < -1) : execString c (s.inText 34 p ip l n) = .error .ctype := by
  have hi : toInt c = c := by unfold toInt; rw [Int.bmod_def]; split <;> omega
  rw [execString, bind_ok (get_run _)]
  show (if c = 34 then _ else _ : Exec Err) _ = _
  rw [if_neg (by omega)]
  show (match s.g.cfg.strings with
    | .multispace => _
    | .sgml => _
    | .c => _ : Exec Err) _ = _
  rw [hst]
  show execSGML c _ = _
  have h1 : isSpace c (s.inText 34 p ip l n) = .error .ctype := by
    unfold isSpace; rw [hi, if_neg (by omega)]; rfl
  rw [execSGML, bind_error h1]

example : stackAfter (machine [34, -61, -92, 34]) 2 = none := by decide +kernel

/-! ## C22 -/

/-- The escapes: `\0 \a \b \t \n \v \f \r \e`; any other character stands for itself. -/
def escapes : List (Int × Int) := [(48, 0), (97, 7), (98, 8), (116, 9), (110, 10), (118, 11), (102, 12), (114, 13), (101, 27)]

/-- A piece of a C-style string: a character, or a backslash and a character. -/
inductive Piece
  | plain (c : Int)
  | escaped (c : Int)

/-- The cells a piece occupies. -/
def Piece.cells : Piece → List Int
  | .plain c => [c]
  | .escaped c => [92, c]

/-- The character it stands for. -/
def Piece.value : Piece → Int
  | .plain c => c
  | .escaped c => (escapes.lookup c).getD c

/-- A character by itself is neither the quote nor a backslash. -/
def Piece.Fine : Piece → Prop
  | .plain c => c ≠ 34 ∧ c ≠ 92
  | .escaped _ => True

theorem escapeCode_eq (c : Int) : escapeCode c = (escapes.lookup c).getD c := by
  unfold escapeCode escapes
  repeat' split
  all_goals first | (subst_vars; rfl) | skip
  have hf : ∀ k : Int, ¬ c = k → (c == k) = false := fun k h => by simpa using h
  simp only [List.lookup, hf _ ‹¬ c = 48›, hf _ ‹¬ c = 97›, hf _ ‹¬ c = 98›, hf _ ‹¬ c = 116›, hf _ ‹¬ c = 110›, hf _ ‹¬ c = 118›,
    hf _ ‹¬ c = 102›, hf _ ‹¬ c = 114›, hf _ ‹¬ c = 101›, Option.getD_none]

theorem text_c {s : St} (h : AtQuote s) (hf : 0 < s.g.fuel) (hst : s.g.cfg.strings = .c) {a : Nat → Int}
    (ha : CellsAhead s a) : ∀ (ps : List Piece) (i : Nat) (ip : IP) (l : List Int) (n : Nat), Spells a i (ps.flatMap Piece.cells) →
      (∀ p ∈ ps, p.Fine) → Ahead s i ip → ∃ ip' n', Ahead s (i + (ps.flatMap Piece.cells).length) ip' ∧
        ticks ps.length (s.inText 34 0 ip l n) = .ok ((), s.inText 34 0 ip' ((ps.map Piece.value).reverse ++ l) n') := by
  intro ps
  induction ps with
  | nil => intro i ip l n _ _ hi; exact ⟨ip, n, hi, rfl⟩
  | cons p ps ih =>
    intro i ip l n hs hno hi
    have hfine := hno p (by simp)
    obtain ⟨ip1, h1, h2⟩ := ahead_next hi
    rw [List.flatMap_cons] at hs
    cases p with
    | plain c =>
      have hs' : Spells a i (c :: ps.flatMap Piece.cells) := hs
      obtain ⟨ip', n', h3, h4⟩ := ih (i + 1) ip1 (c :: l) (n + 1) hs'.tail (fun x hx => hno x (by simp [hx])) h2
      refine ⟨ip', n', ?_, ?_⟩
      · rw [List.flatMap_cons, List.length_append, show i + ((Piece.plain c).cells.length + (ps.flatMap Piece.cells).length) =
          i + 1 + (ps.flatMap Piece.cells).length by show i + (1 + _) = _; omega]
        exact h3
      have hc : (s.inText 34 0 ip l n).g.field.get (s.inText 34 0 ip l n).cur.ip.pos = c := (ha.eq hi).symm.trans hs'.head
      have he : execute (s.inText 34 0 ip l n).g.fuel ((s.inText 34 0 ip l n).g.field.get (s.inText 34 0 ip l n).cur.ip.pos)
          (s.inText 34 0 ip l n) = .ok (.none, s.inText 34 0 ip (c :: l) (n + 1)) := by
        rw [hc, inText_g, execute_inText _ _ _ _ _ hf, execString_c_plain h.lifo h.pushes hst _ _ _ _ _ hfine.1 hfine.2]
      show (tick >>= fun _ => ticks ps.length) _ = _
      rw [bind_ok (tick_none (s := s.inText 34 0 ip l n) (s1 := s.inText 34 0 ip (c :: l) (n + 1)) hf he h1)]
      have h5 : (s.inText 34 0 ip (c :: l) (n + 1)).setIP ip1 = s.inText 34 0 ip1 (c :: l) (n + 1) := rfl
      rw [h5, h4]
      simp [Piece.value]
    | escaped c =>
      have hs' : Spells a i (92 :: c :: ps.flatMap Piece.cells) := hs
      obtain ⟨ip2, g1, g2⟩ := ahead_next h2
      have hcode : escapeCode (s.g.field.get ip1.pos) = (Piece.escaped c).value := by
        rw [← ha.eq h2, hs'.tail.head, escapeCode_eq]; rfl
      obtain ⟨ip', n', h3, h4⟩ := ih (i + 1 + 1) ip2 ((Piece.escaped c).value :: l) (n + 1) hs'.tail.tail (fun x hx => hno x (by simp [hx])) g2
      refine ⟨ip', n', ?_, ?_⟩
      · rw [List.flatMap_cons, List.length_append, show i + ((Piece.escaped c).cells.length + (ps.flatMap Piece.cells).length) =
          i + 1 + 1 + (ps.flatMap Piece.cells).length by show i + (2 + _) = _; omega]
        exact h3
      have hc : (s.inText 34 0 ip l n).g.field.get (s.inText 34 0 ip l n).cur.ip.pos = 92 := (ha.eq hi).symm.trans hs'.head
      have he : execute (s.inText 34 0 ip l n).g.fuel ((s.inText 34 0 ip l n).g.field.get (s.inText 34 0 ip l n).cur.ip.pos)
          (s.inText 34 0 ip l n) = .ok (.none, s.inText 34 0 ip1 ((Piece.escaped c).value :: l) (n + 1)) := by
        rw [hc, inText_g, execute_inText _ _ _ _ _ hf, execString_c_escape h.lifo h.pushes hst _ _ _ _ _ (by decide) h1, hcode]
      show (tick >>= fun _ => ticks ps.length) _ = _
      rw [bind_ok (tick_none (s := s.inText 34 0 ip l n) (s1 := s.inText 34 0 ip1 ((Piece.escaped c).value :: l) (n + 1)) hf he g1)]
      have h5 : (s.inText 34 0 ip1 ((Piece.escaped c).value :: l) (n + 1)).setIP ip2 =
        s.inText 34 0 ip2 ((Piece.escaped c).value :: l) (n + 1) := rfl
      rw [h5, h4]
      simp

/-- **C22** C-style strings: a quoted sequence of characters and escapes pushes what they stand for, one tick each; an escaped quote does
not end the string. -/
theorem C22_c_string (s : St) (h : AtQuote s) (hf : 0 < s.g.fuel) (hst : s.g.cfg.strings = .c) (a : Nat → Int) (ha : CellsAhead s a)
    (ps : List Piece) (hps : ∀ p ∈ ps, p.Fine) (htext : Spells a 1 (ps.flatMap Piece.cells))
    (hend : a ((ps.flatMap Piece.cells).length + 1) = 34) :
    ∃ ip' s', Ahead s ((ps.flatMap Piece.cells).length + 2) ip' ∧ ticks (ps.length + 2) s = .ok ((), s') ∧
      ((s.setStr false 34 0).setIP ip').Leaves s' ((ps.map Piece.value).reverse ++ s.items) := by
  obtain ⟨ip1, h1, h2⟩ := opening_tick h hf
  obtain ⟨ip', n', e1, e2⟩ := text_c h hf hst ha ps 1 ip1 s.items s.top.ops htext hps h1
  have h3 : ticks (ps.length + 1) s = .ok ((), s.inText 34 0 ip' ((ps.map Piece.value).reverse ++ s.items) n') := by
    show (tick >>= fun _ => ticks ps.length) s = _
    rw [bind_ok h2, e2]
  rw [Nat.add_comm] at e1
  obtain ⟨ip2, f1, f2⟩ := closing_tick hf ha 0 e1 hend ((ps.map Piece.value).reverse ++ s.items) n'
  exact ⟨ip2, _, f1, (ticks_snoc h3).trans f2, ⟨n', rfl⟩⟩

/-- `"a\"\n"` with C-style strings. -/
example : AtQuote (machineWith { dims := 2, standard := 98, strings := .c } [[34, 97, 92, 34, 92, 110, 34]]) :=
  ⟨by decide +kernel, ⟨.une93, _, rfl, by decide, by decide⟩, by decide +kernel, by decide +kernel, by decide +kernel, by decide +kernel,
    by decide +kernel⟩

example : [Piece.plain 97, .escaped 34, .escaped 110].flatMap Piece.cells = [97, 92, 34, 92, 110] ∧
    [Piece.plain 97, .escaped 34, .escaped 110].map Piece.value = [97, 34, 10] := by decide

end Funge
