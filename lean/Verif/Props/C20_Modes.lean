import Verif.Props.C20_Strings
import Verif.Props.C24_Modes
/-!
# C20, C21, C22 in all modes of the stack

MODE's `I` makes the stack push at its other end; strings then go there, and nothing else is different.
-/
namespace Funge
open Exec IP

/-- Does the top stack push at its bottom? -/
def St.inverted (s : St) : Bool := hasMode s.top.mode modeInvert

/-- The top stack after `xs` have been pushed, the first one first: above what was there, or below it in invert mode. -/
def St.onto (s : St) (xs : List Int) : List Int := if hasMode s.top.mode modeInvert then s.items ++ xs else xs.reverse ++ s.items

theorem St.onto_eq (s : St) (xs : List Int) : s.onto xs = fromEnd s.inverted (xs.reverse ++ fromEnd s.inverted s.items) := by
  unfold St.onto St.inverted
  cases hasMode s.top.mode modeInvert <;> simp [fromEnd]

/-- `AtQuote` for a stack in any mode. -/
structure AtQuoteAny (s : St) : Prop where
  room : s.cur.ss.select < s.cur.ss.stacks.length
  pushes : s.PushesInts
  normal : s.cur.inString = false
  prev : s.cur.strPrev = 0
  quote : s.g.field.get s.cur.ip.pos = 34
  meaning : s.cur.getSem 34 = some ⟨.string, false⟩
  dive : hasMode s.g.cfg.mode modeDive = false

/-- The state in a text, as `St.inText`: `l` begins at the end of the stack at which it pushes. -/
def St.inMode (s : St) (q p : Int) (ip : IP) (l : List Int) (n : Nat) : St := ((s.setStr true q p).setIP ip).setItems (fromEnd s.inverted l) n

theorem inMode_ip (s : St) (q p ip l n) : (s.inMode q p ip l n).cur.ip = ip := rfl
theorem inMode_g (s : St) (q p ip l n) : (s.inMode q p ip l n).g = s.g := rfl

theorem inMode_push {s : St} (h : s.cur.ss.select < s.cur.ss.stacks.length) (hp : s.PushesInts) (q p ip l n) (v : Int) :
    runnerPush v (s.inMode q p ip l n) = .ok ((), s.inMode q p ip (v :: l) (n + 1)) := by
  rw [runnerPush_run (s := s.inMode q p ip l n) hp]
  exact pushTop_same (s := (s.setStr true q p).setIP ip) h rfl l n v

theorem execString_end_any {s : St} (q p ip l n) :
    execString q (s.inMode q p ip l n) = .ok (.none, ((s.setStr false q 0).setIP ip).setItems (fromEnd s.inverted l) n) := by
  rw [execString, bind_ok (get_run _)]
  show (if q = q then _ else _ : Exec Err) _ = _
  rw [if_pos rfl]; rfl

theorem execute_inMode_any {s : St} (q p ip l n) {f : Nat} (hf : 0 < f) (c : Int) :
    execute f c (s.inMode q p ip l n) = execString c (s.inMode q p ip l n) := by
  obtain ⟨k, rfl⟩ : ∃ k, f = k + 1 := ⟨f - 1, by omega⟩
  rfl

theorem execString_multispace_any {s : St} (h : s.cur.ss.select < s.cur.ss.stacks.length) (hp : s.PushesInts) (hst : s.g.cfg.strings = .multispace) (q p ip l n) {c : Int}
    (hc : c ≠ q) : execString c (s.inMode q p ip l n) = .ok (.none, s.inMode q p ip (c :: l) (n + 1)) := by
  rw [execString, bind_ok (get_run _)]
  show (if c = q then _ else _ : Exec Err) _ = _
  rw [if_neg hc]
  show (match s.g.cfg.strings with
    | .multispace => _
    | .sgml => _
    | .c => _ : Exec Err) _ = _
  rw [hst]
  show (runnerPush c >>= _) _ = _
  rw [bind_ok (inMode_push h hp q p ip l n c)]; rfl

theorem execString_sgml_any {s : St} (h : s.cur.ss.select < s.cur.ss.stacks.length) (hp : s.PushesInts) (hst : s.g.cfg.strings = .sgml) (q p ip l n) {c : Int}
    (hc : c ≠ q) (hr : 0 ≤ c ∧ c ≤ 255) (hpr : 0 ≤ p ∧ p ≤ 255) :
    execString c (s.inMode q p ip l n) = if isSpaceByte c && isSpaceByte p then .ok (.skip, s.inMode q p ip l n)
      else .ok (.none, s.inMode q c ip (c :: l) (n + 1)) := by
  rw [execString, bind_ok (get_run _)]
  show (if c = q then _ else _ : Exec Err) _ = _
  rw [if_neg hc]
  show (match s.g.cfg.strings with
    | .multispace => _
    | .sgml => _
    | .c => _ : Exec Err) _ = _
  rw [hst]
  show execSGML c _ = _
  rw [execSGML, bind_ok (isSpace_run hr _), bind_ok (get_run _)]
  have h2 : (if isSpaceByte c then isSpace (s.inMode q p ip l n).cur.strPrev else pure false : Exec Bool) (s.inMode q p ip l n) =
      .ok (isSpaceByte c && isSpaceByte p, s.inMode q p ip l n) := by
    cases isSpaceByte c with
    | false => rfl
    | true => exact isSpace_run hpr _
  rw [bind_ok h2]
  cases isSpaceByte c && isSpaceByte p with
  | true => rfl
  | false =>
    show (runnerPush c >>= _) _ = _
    rw [bind_ok (inMode_push h hp q p ip l n c)]; rfl

theorem execString_c_plain_any {s : St} (h : s.cur.ss.select < s.cur.ss.stacks.length) (hp : s.PushesInts) (hst : s.g.cfg.strings = .c) (q p ip l n) {c : Int}
    (hc : c ≠ q) (hb : c ≠ 92) : execString c (s.inMode q p ip l n) = .ok (.none, s.inMode q p ip (c :: l) (n + 1)) := by
  rw [execString, bind_ok (get_run _)]
  show (if c = q then _ else _ : Exec Err) _ = _
  rw [if_neg hc]
  show (match s.g.cfg.strings with
    | .multispace => _
    | .sgml => _
    | .c => _ : Exec Err) _ = _
  rw [hst]
  show execC c _ = _
  rw [execC, if_neg hb]
  show (runnerPush c >>= _) _ = _
  rw [bind_ok (inMode_push h hp q p ip l n c)]; rfl

theorem execString_c_escape_any {s : St} (h : s.cur.ss.select < s.cur.ss.stacks.length) (hp : s.PushesInts) (hst : s.g.cfg.strings = .c) (q p ip l n) {ip' : IP}
    (hq : q ≠ 92) (hip : ip.next s.g.cfg.dims s.g.cfg.topo s.g.field = .ok ip') :
    execString 92 (s.inMode q p ip l n) = .ok (.none, s.inMode q p ip' (escapeCode (s.g.field.get ip'.pos) :: l) (n + 1)) := by
  rw [execString, bind_ok (get_run _)]
  show (if 92 = q then _ else _ : Exec Err) _ = _
  rw [if_neg (Ne.symm hq)]
  show (match s.g.cfg.strings with
    | .multispace => _
    | .sgml => _
    | .c => _ : Exec Err) _ = _
  rw [hst]
  show execC 92 _ = _
  rw [execC, if_pos rfl]
  show (ipNext >>= _) _ = _
  rw [bind_ok (ipNext_run (s := s.inMode q p ip l n) hip), bind_ok (ipGet_run _)]
  have h2 : (s.inMode q p ip l n).setIP ip' = s.inMode q p ip' l n := rfl
  rw [h2, inMode_ip, inMode_g, bind_ok (inMode_push h hp q p ip' l n _)]; rfl

theorem opening_tick_any {s : St} (h : AtQuoteAny s) (hf : 0 < s.g.fuel) :
    ∃ ip', Ahead s 1 ip' ∧ tick s = .ok ((), s.inMode 34 0 ip' (fromEnd s.inverted s.items) s.top.ops) := by
  obtain ⟨ip', h1, h2⟩ := ahead_next (s := s) (m := 0) (ip1 := s.cur.ip) rfl
  refine ⟨ip', h2, ?_⟩
  have he : execute s.g.fuel (s.g.field.get s.cur.ip.pos) s = .ok (.none, s.setStr true 34 0) := by
    obtain ⟨k, hk⟩ : ∃ k, s.g.fuel = k + 1 := ⟨s.g.fuel - 1, by omega⟩
    rw [hk, h.quote]
    simp only [execute, h.normal, execNormal, h.meaning, h.dive, Bool.false_and]
    show Except.ok (Err.none, { s with cur := { s.cur with inString := true, strEnd := 34 } }) = _
    rw [St.setStr, ← h.prev]
  have := tick_none (s1 := s.setStr true 34 0) hf he h1
  rw [this, St.inMode]
  rw [fromEnd_fromEnd]
  have hself : ((s.setStr true 34 0).setIP ip').setItems s.items s.top.ops = (s.setStr true 34 0).setIP ip' := setTop_self h.room
  exact congrArg (fun x => Except.ok ((), x)) hself.symm

theorem text_multispace_any {s : St} (h : AtQuoteAny s) (hf : 0 < s.g.fuel) (hst : s.g.cfg.strings = .multispace) {a : Nat → Int}
    (ha : CellsAhead s a) : ∀ (text : List Int) (i : Nat) (ip : IP) (l : List Int) (n : Nat), Spells a i text → (∀ c ∈ text, c ≠ 34) →
      Ahead s i ip → ∃ ip' n', Ahead s (i + text.length) ip' ∧
        ticks text.length (s.inMode 34 0 ip l n) = .ok ((), s.inMode 34 0 ip' (text.reverse ++ l) n') := by
  intro text
  induction text with
  | nil => intro i ip l n _ _ hi; exact ⟨ip, n, hi, rfl⟩
  | cons c t ih =>
    intro i ip l n hs hno hi
    obtain ⟨ip1, h1, h2⟩ := ahead_next hi
    obtain ⟨ip', n', h3, h4⟩ := ih (i + 1) ip1 (c :: l) (n + 1) hs.tail (fun x hx => hno x (by simp [hx])) h2
    refine ⟨ip', n', by rw [List.length_cons, show i + (t.length + 1) = i + 1 + t.length by omega]; exact h3, ?_⟩
    have hc : (s.inMode 34 0 ip l n).g.field.get (s.inMode 34 0 ip l n).cur.ip.pos = c := (ha.eq hi).symm.trans hs.head
    have he : execute (s.inMode 34 0 ip l n).g.fuel ((s.inMode 34 0 ip l n).g.field.get (s.inMode 34 0 ip l n).cur.ip.pos)
        (s.inMode 34 0 ip l n) = .ok (.none, s.inMode 34 0 ip (c :: l) (n + 1)) := by
      rw [hc, inMode_g, execute_inMode_any _ _ _ _ _ hf, execString_multispace_any h.room h.pushes hst _ _ _ _ _ (hno c (by simp))]
    show (tick >>= fun _ => ticks t.length) _ = _
    rw [bind_ok (tick_none (s := s.inMode 34 0 ip l n) (s1 := s.inMode 34 0 ip (c :: l) (n + 1)) hf he h1)]
    have h5 : (s.inMode 34 0 ip (c :: l) (n + 1)).setIP ip1 = s.inMode 34 0 ip1 (c :: l) (n + 1) := rfl
    rw [h5, h4]
    simp

theorem closing_tick_any {s : St} (hf : 0 < s.g.fuel) {a : Nat → Int} (ha : CellsAhead s a) (p : Int) {i : Nat} {ip : IP} (hi : Ahead s i ip)
    (hq : a i = 34) (l : List Int) (n : Nat) : ∃ ip', Ahead s (i + 1) ip' ∧
      tick (s.inMode 34 p ip l n) = .ok ((), ((s.setStr false 34 0).setIP ip').setItems (fromEnd s.inverted l) n) := by
  obtain ⟨ip1, h1, h2⟩ := ahead_next hi
  refine ⟨ip1, h2, ?_⟩
  have hc : (s.inMode 34 p ip l n).g.field.get (s.inMode 34 p ip l n).cur.ip.pos = 34 := (ha.eq hi).symm.trans hq
  have he : execute (s.inMode 34 p ip l n).g.fuel ((s.inMode 34 p ip l n).g.field.get (s.inMode 34 p ip l n).cur.ip.pos)
      (s.inMode 34 p ip l n) = .ok (.none, ((s.setStr false 34 0).setIP ip).setItems (fromEnd s.inverted l) n) := by
    rw [hc, inMode_g, execute_inMode_any _ _ _ _ _ hf, execString_end_any]
  exact tick_none (s := s.inMode 34 p ip l n) (s1 := ((s.setStr false 34 0).setIP ip).setItems (fromEnd s.inverted l) n) hf he h1

/-- **C20** in all modes of the stack: `C20_string`, where the characters go to the end of the stack at which it pushes. -/
theorem C20_string_any_mode (s : St) (h : AtQuoteAny s) (hf : 0 < s.g.fuel) (hst : s.g.cfg.strings = .multispace) (a : Nat → Int) (ha : CellsAhead s a)
    (text : List Int) (hno : ∀ c ∈ text, c ≠ 34) (htext : Spells a 1 text) (hend : a (text.length + 1) = 34) :
    (∀ k, k ≤ text.length → ∃ ip' s', Ahead s (k + 1) ip' ∧ ticks (k + 1) s = .ok ((), s') ∧
      ((s.setStr true 34 0).setIP ip').Leaves s' (s.onto (text.take k))) ∧
    ∃ ip' s', Ahead s (text.length + 2) ip' ∧ ticks (text.length + 2) s = .ok ((), s') ∧
      ((s.setStr false 34 0).setIP ip').Leaves s' (s.onto text) := by
  obtain ⟨ip1, h1, h2⟩ := opening_tick_any h hf
  have h3 : ∀ k, k ≤ text.length → ∃ ip' n', Ahead s (k + 1) ip' ∧
      ticks (k + 1) s = .ok ((), s.inMode 34 0 ip' ((text.take k).reverse ++ fromEnd s.inverted s.items) n') := by
    intro k hk
    obtain ⟨ip', n', e1, e2⟩ := text_multispace_any h hf hst ha (text.take k) 1 ip1 (fromEnd s.inverted s.items) s.top.ops
      (fun j hj => by
        have hj' : j < text.length := by rw [List.length_take] at hj; omega
        rw [htext j hj']; simp)
      (fun c hc => hno c (List.mem_of_mem_take hc)) h1
    rw [List.length_take, Nat.min_eq_left hk] at e1 e2
    refine ⟨ip', n', by rw [Nat.add_comm]; exact e1, ?_⟩
    show (tick >>= fun _ => ticks k) s = _
    rw [bind_ok h2, e2]
  refine ⟨?_, ?_⟩
  · intro k hk
    obtain ⟨ip', n', e1, e2⟩ := h3 k hk
    exact ⟨ip', _, e1, e2, ⟨n', by rw [St.onto_eq]; rfl⟩⟩
  · obtain ⟨ip', n', e1, e2⟩ := h3 text.length (Nat.le_refl _)
    rw [List.take_length] at e2
    obtain ⟨ip2, f1, f2⟩ := closing_tick_any hf ha 0 e1 hend (text.reverse ++ fromEnd s.inverted s.items) n'
    exact ⟨ip2, _, f1, (ticks_snoc e2).trans f2, ⟨n', by rw [St.onto_eq]⟩⟩

theorem text_sgml_any {s : St} (h : AtQuoteAny s) (hst : s.g.cfg.strings = .sgml) {a : Nat → Int} (ha : CellsAhead s a) :
    ∀ (text : List Int) (i : Nat) (ip : IP) (l : List Int) (n : Nat) (p : Int) (f : Nat), Spells a i text →
      (∀ c ∈ text, c ≠ 34 ∧ 0 ≤ c ∧ c ≤ 255) → (0 ≤ p ∧ p ≤ 255) → a (i + text.length) = 34 → Ahead s i ip → text.length < f →
      text.length < s.g.fuel → ∃ ip' n', Ahead s (i + text.length + 1) ip' ∧
        (tickLoop f >>= fun _ => ticks (squeeze (Blank p) text).length) (s.inMode 34 p ip l n) =
          .ok ((), ((s.setStr false 34 0).setIP ip').setItems (fromEnd s.inverted ((squeeze (Blank p) text).reverse ++ l)) n') := by
  intro text
  induction text with
  | nil =>
    intro i ip l n p f _ _ _ hend hi hf hf'
    obtain ⟨ip1, h1, h2⟩ := ahead_next hi
    obtain ⟨f, rfl⟩ : ∃ g, f = g + 1 := ⟨f - 1, by omega⟩
    refine ⟨ip1, n, h2, ?_⟩
    have hc : (s.inMode 34 p ip l n).g.field.get (s.inMode 34 p ip l n).cur.ip.pos = 34 := (ha.eq hi).symm.trans hend
    have he : execute (s.inMode 34 p ip l n).g.fuel ((s.inMode 34 p ip l n).g.field.get (s.inMode 34 p ip l n).cur.ip.pos)
        (s.inMode 34 p ip l n) = .ok (.none, ((s.setStr false 34 0).setIP ip).setItems (fromEnd s.inverted l) n) := by
      rw [hc, inMode_g, execute_inMode_any _ _ _ _ _ hf', execString_end_any]
    rw [bind_ok (tickLoop_none (s := s.inMode 34 p ip l n) (s1 := ((s.setStr false 34 0).setIP ip).setItems (fromEnd s.inverted l) n) he h1)]
    rfl
  | cons c t ih =>
    intro i ip l n p f hs hno hp hend hi hf hf'
    obtain ⟨ip1, h1, h2⟩ := ahead_next hi
    obtain ⟨f, rfl⟩ : ∃ g, f = g + 1 := ⟨f - 1, by omega⟩
    rw [List.length_cons] at hend hf hf'
    have hlen : i + (t.length + 1) = i + 1 + t.length := by omega
    rw [hlen] at hend
    obtain ⟨hcq, hcr⟩ := hno c (by simp)
    have hc : (s.inMode 34 p ip l n).g.field.get (s.inMode 34 p ip l n).cur.ip.pos = c := (ha.eq hi).symm.trans hs.head
    have hex := execString_sgml_any h.room h.pushes hst 34 p ip l n hcq hcr hp
    rw [isSpaceByte_blank, isSpaceByte_blank] at hex
    rw [List.length_cons, hlen]
    cases hb : Blank c && Blank p with
    | true =>
      rw [hb, if_pos rfl] at hex
      have he : execute (s.inMode 34 p ip l n).g.fuel ((s.inMode 34 p ip l n).g.field.get (s.inMode 34 p ip l n).cur.ip.pos)
          (s.inMode 34 p ip l n) = .ok (.skip, s.inMode 34 p ip l n) := by
        rw [hc, inMode_g, execute_inMode_any _ _ _ _ _ (by omega), hex]
      obtain ⟨ip', n', e1, e2⟩ := ih (i + 1) ip1 l n p f hs.tail (fun x hx => hno x (by simp [hx])) hp hend h2 (by omega) (by omega)
      refine ⟨ip', n', e1, ?_⟩
      have hbp : Blank p = true := by simp at hb; exact hb.2
      have hsq : squeeze (Blank p) (c :: t) = squeeze (Blank p) t := by rw [squeeze, hb, if_pos rfl, hbp]
      rw [hsq, ← e2, bind_run, bind_run, tickLoop_skip (s := s.inMode 34 p ip l n) (s1 := s.inMode 34 p ip l n) he h1]
      rfl
    | false =>
      rw [hb] at hex
      have he : execute (s.inMode 34 p ip l n).g.fuel ((s.inMode 34 p ip l n).g.field.get (s.inMode 34 p ip l n).cur.ip.pos)
          (s.inMode 34 p ip l n) = .ok (.none, s.inMode 34 c ip (c :: l) (n + 1)) := by
        rw [hc, inMode_g, execute_inMode_any _ _ _ _ _ (by omega), hex]; rfl
      obtain ⟨ip', n', e1, e2⟩ := ih (i + 1) ip1 (c :: l) (n + 1) c s.g.fuel hs.tail (fun x hx => hno x (by simp [hx])) hcr hend h2
        (by omega) (by omega)
      refine ⟨ip', n', e1, ?_⟩
      have hsq : squeeze (Blank p) (c :: t) = c :: squeeze (Blank c) t := by rw [squeeze, hb]; rfl
      rw [hsq, bind_ok (tickLoop_none (s := s.inMode 34 p ip l n) (s1 := s.inMode 34 c ip (c :: l) (n + 1)) he h1)]
      have h5 : (s.inMode 34 c ip (c :: l) (n + 1)).setIP ip1 = s.inMode 34 c ip1 (c :: l) (n + 1) := rfl
      rw [h5]
      show (tick >>= fun _ => ticks (squeeze (Blank c) t).length) _ = _
      rw [List.reverse_cons, List.append_assoc]
      exact e2

/-- **C21** in all modes of the stack. -/
theorem C21_sgml_string_any_mode (s : St) (h : AtQuoteAny s) (hst : s.g.cfg.strings = .sgml) (a : Nat → Int) (ha : CellsAhead s a)
    (text : List Int) (hno : ∀ c ∈ text, c ≠ 34 ∧ 0 ≤ c ∧ c ≤ 255) (htext : Spells a 1 text) (hend : a (text.length + 1) = 34)
    (hf : text.length < s.g.fuel) :
    ∃ ip' s', Ahead s (text.length + 2) ip' ∧ ticks ((collapse text).length + 2) s = .ok ((), s') ∧
      ((s.setStr false 34 0).setIP ip').Leaves s' (s.onto (collapse text)) := by
  obtain ⟨ip1, h1, h2⟩ := opening_tick_any h (by omega)
  obtain ⟨ip', n', e1, e2⟩ := text_sgml_any h hst ha text 1 ip1 (fromEnd s.inverted s.items) s.top.ops 0 s.g.fuel htext hno (by omega)
    (by rw [Nat.add_comm]; exact hend) h1 hf hf
  have hb : Blank 0 = false := by decide
  rw [hb, (squeeze_eq text).1] at e2
  refine ⟨ip', _, by rw [show text.length + 2 = 1 + text.length + 1 by omega]; exact e1, ?_, ⟨n', by rw [St.onto_eq]⟩⟩
  show (tick >>= fun _ => ticks ((collapse text).length + 1)) s = _
  rw [bind_ok h2]
  exact e2

theorem text_c_any {s : St} (h : AtQuoteAny s) (hf : 0 < s.g.fuel) (hst : s.g.cfg.strings = .c) {a : Nat → Int}
    (ha : CellsAhead s a) : ∀ (ps : List Piece) (i : Nat) (ip : IP) (l : List Int) (n : Nat), Spells a i (ps.flatMap Piece.cells) →
      (∀ p ∈ ps, p.Fine) → Ahead s i ip → ∃ ip' n', Ahead s (i + (ps.flatMap Piece.cells).length) ip' ∧
        ticks ps.length (s.inMode 34 0 ip l n) = .ok ((), s.inMode 34 0 ip' ((ps.map Piece.value).reverse ++ l) n') := by
  intro ps
  induction ps with
  | nil => intro i ip l n _ _ hi; exact ⟨ip, n, hi, rfl⟩
  | cons p ps ih =>
    intro i ip l n hs hno hi
    have hfine := hno p (by simp)
    obtain ⟨ip1, h1, h2⟩ := ahead_next hi
    rw [List.flatMap_cons] at hs
    cases p with
    | plain c =>
      have hs' : Spells a i (c :: ps.flatMap Piece.cells) := hs
      obtain ⟨ip', n', h3, h4⟩ := ih (i + 1) ip1 (c :: l) (n + 1) hs'.tail (fun x hx => hno x (by simp [hx])) h2
      refine ⟨ip', n', ?_, ?_⟩
      · rw [List.flatMap_cons, List.length_append, show i + ((Piece.plain c).cells.length + (ps.flatMap Piece.cells).length) =
          i + 1 + (ps.flatMap Piece.cells).length by show i + (1 + _) = _; omega]
        exact h3
      have hc : (s.inMode 34 0 ip l n).g.field.get (s.inMode 34 0 ip l n).cur.ip.pos = c := (ha.eq hi).symm.trans hs'.head
      have he : execute (s.inMode 34 0 ip l n).g.fuel ((s.inMode 34 0 ip l n).g.field.get (s.inMode 34 0 ip l n).cur.ip.pos)
          (s.inMode 34 0 ip l n) = .ok (.none, s.inMode 34 0 ip (c :: l) (n + 1)) := by
        rw [hc, inMode_g, execute_inMode_any _ _ _ _ _ hf, execString_c_plain_any h.room h.pushes hst _ _ _ _ _ hfine.1 hfine.2]
      show (tick >>= fun _ => ticks ps.length) _ = _
      rw [bind_ok (tick_none (s := s.inMode 34 0 ip l n) (s1 := s.inMode 34 0 ip (c :: l) (n + 1)) hf he h1)]
      have h5 : (s.inMode 34 0 ip (c :: l) (n + 1)).setIP ip1 = s.inMode 34 0 ip1 (c :: l) (n + 1) := rfl
      rw [h5, h4]
      simp [Piece.value]
    | escaped c =>
      have hs' : Spells a i (92 :: c :: ps.flatMap Piece.cells) := hs
      obtain ⟨ip2, g1, g2⟩ := ahead_next h2
      have hcode : escapeCode (s.g.field.get ip1.pos) = (Piece.escaped c).value := by
        rw [← ha.eq h2, hs'.tail.head, escapeCode_eq]; rfl
      obtain ⟨ip', n', h3, h4⟩ := ih (i + 1 + 1) ip2 ((Piece.escaped c).value :: l) (n + 1) hs'.tail.tail (fun x hx => hno x (by simp [hx])) g2
      refine ⟨ip', n', ?_, ?_⟩
      · rw [List.flatMap_cons, List.length_append, show i + ((Piece.escaped c).cells.length + (ps.flatMap Piece.cells).length) =
          i + 1 + 1 + (ps.flatMap Piece.cells).length by show i + (2 + _) = _; omega]
        exact h3
      have hc : (s.inMode 34 0 ip l n).g.field.get (s.inMode 34 0 ip l n).cur.ip.pos = 92 := (ha.eq hi).symm.trans hs'.head
      have he : execute (s.inMode 34 0 ip l n).g.fuel ((s.inMode 34 0 ip l n).g.field.get (s.inMode 34 0 ip l n).cur.ip.pos)
          (s.inMode 34 0 ip l n) = .ok (.none, s.inMode 34 0 ip1 ((Piece.escaped c).value :: l) (n + 1)) := by
        rw [hc, inMode_g, execute_inMode_any _ _ _ _ _ hf, execString_c_escape_any h.room h.pushes hst _ _ _ _ _ (by decide) h1, hcode]
      show (tick >>= fun _ => ticks ps.length) _ = _
      rw [bind_ok (tick_none (s := s.inMode 34 0 ip l n) (s1 := s.inMode 34 0 ip1 ((Piece.escaped c).value :: l) (n + 1)) hf he g1)]
      have h5 : (s.inMode 34 0 ip1 ((Piece.escaped c).value :: l) (n + 1)).setIP ip2 =
        s.inMode 34 0 ip2 ((Piece.escaped c).value :: l) (n + 1) := rfl
      rw [h5, h4]
      simp

/-- **C22** in all modes of the stack. -/
theorem C22_c_string_any_mode (s : St) (h : AtQuoteAny s) (hf : 0 < s.g.fuel) (hst : s.g.cfg.strings = .c) (a : Nat → Int) (ha : CellsAhead s a)
    (ps : List Piece) (hps : ∀ p ∈ ps, p.Fine) (htext : Spells a 1 (ps.flatMap Piece.cells))
    (hend : a ((ps.flatMap Piece.cells).length + 1) = 34) :
    ∃ ip' s', Ahead s ((ps.flatMap Piece.cells).length + 2) ip' ∧ ticks (ps.length + 2) s = .ok ((), s') ∧
      ((s.setStr false 34 0).setIP ip').Leaves s' (s.onto (ps.map Piece.value)) := by
  obtain ⟨ip1, h1, h2⟩ := opening_tick_any h hf
  obtain ⟨ip', n', e1, e2⟩ := text_c_any h hf hst ha ps 1 ip1 (fromEnd s.inverted s.items) s.top.ops htext hps h1
  have h3 : ticks (ps.length + 1) s = .ok ((), s.inMode 34 0 ip' ((ps.map Piece.value).reverse ++ fromEnd s.inverted s.items) n') := by
    show (tick >>= fun _ => ticks ps.length) s = _
    rw [bind_ok h2, e2]
  rw [Nat.add_comm] at e1
  obtain ⟨ip2, f1, f2⟩ := closing_tick_any hf ha 0 e1 hend ((ps.map Piece.value).reverse ++ fromEnd s.inverted s.items) n'
  exact ⟨ip2, _, f1, (ticks_snoc h3).trans f2, ⟨n', by rw [St.onto_eq]⟩⟩


/-- `"a +"` in Befunge-93 with a stack in invert mode that holds 7. -/
def exInverted : St :=
  (machineWith { dims := 2, standard := 93, strings := .multispace } [[34, 97, 32, 43, 34]]).setTop ⟨modeInvert, [7], 0⟩

example : AtQuoteAny exInverted :=
  ⟨by decide +kernel, ⟨.une93, [.be93], by decide +kernel⟩, by decide +kernel, by decide +kernel, by decide +kernel, by decide +kernel,
    by decide +kernel⟩

example : exInverted.inverted = true ∧ stackAfter exInverted 5 = some [7, 97, 32, 43] := by decide +kernel

/-- SGML and C-style strings with an inverted stack. -/
example : AtQuoteAny ((machine [34, 97, 32, 32, 98, 34]).setTop ⟨modeInvert, [7], 0⟩) ∧
    stackAfter ((machine [34, 97, 32, 32, 98, 34]).setTop ⟨modeInvert, [7], 0⟩) 5 = some [7, 97, 32, 98] :=
  ⟨⟨by decide +kernel, ⟨.une93, _, rfl, by decide, by decide⟩, by decide +kernel, by decide +kernel, by decide +kernel, by decide +kernel,
    by decide +kernel⟩, by decide +kernel⟩

example : AtQuoteAny ((machineWith { dims := 2, standard := 98, strings := .c } [[34, 97, 92, 34, 34]]).setTop ⟨modeInvert, [7], 0⟩) ∧
    stackAfter ((machineWith { dims := 2, standard := 98, strings := .c } [[34, 97, 92, 34, 34]]).setTop ⟨modeInvert, [7], 0⟩) 4 = some [7, 97, 34] :=
  ⟨⟨by decide +kernel, ⟨.une93, _, rfl, by decide, by decide⟩, by decide +kernel, by decide +kernel, by decide +kernel, by decide +kernel,
    by decide +kernel⟩, by decide +kernel⟩

end Funge
