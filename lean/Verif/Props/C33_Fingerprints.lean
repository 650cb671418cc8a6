import Verif.Props.C37_Modes
import Verif.Props.C25_Blocks
/-
C33, C34 (loading and unloading fingerprints), C58 (FING), C62 (what a twin understands).
-/
namespace Funge
open Exec

/-- What a letter (or any character) executes: its current meaning, and "reflect" if it has none. -/
def Runner.meaning (r : Runner) (c : Int) : Sem := (r.getSem c).getD ⟨.fingReflect, false⟩

/-- The same state with another table of meanings and other lists of fingerprints. -/
def St.setTable (s : St) (t : Int → List Sem) (l a : List Nat) : St := { s with cur := { s.cur with sems := t, loaded := l, available := a } }

theorem setTable_setItems (s : St) (t l a i n) : (s.setTable t l a).setItems i n = (s.setItems i n).setTable t l a := rfl
theorem lifo_setTable {s : St} (h : s.Lifo) (t l a) : (s.setTable t l a).Lifo := h
theorem items_setTable (s : St) (t l a) : (s.setTable t l a).items = s.items := rfl

/-! ### Tables -/

theorem insts_nodup (f : Fp) : f.insts.Nodup := by cases f <;> decide

theorem meanings_map (l : List Int) (g : Int → Sem) (h : l.Nodup) (c : Int) :
    meanings (l.map fun c => (c, g c)) c = if c ∈ l then [g c] else [] := by
  induction l with
  | nil => rfl
  | cons x t ih =>
    have hx := (List.nodup_cons.1 h).1
    have ih := ih (List.nodup_cons.1 h).2
    rw [List.map_cons]
    change meanings ([(x, g x)] ++ _) c = _
    rw [meanings_append, ih]
    by_cases hc : c = x
    · subst hc; simp [hx, meanings]
    · have : (x == c) = false := by simpa using fun h => hc h.symm
      simp [hc, meanings, this]

/-- What a fingerprint other than DBUG makes of its letters. -/
theorem bindings_meanings {f : Fp} (hf : f ≠ .DBUG) (c : Int) :
    ∃ b, meanings f.bindings c = if c ∈ f.insts then [⟨.fing f c, b⟩] else [] := by
  cases f
  case DBUG => exact absurd rfl hf
  case FISH => exact ⟨_, meanings_map _ (fun c => ⟨.fing .FISH c, c == 85 || c == 79⟩) (insts_nodup .FISH) c⟩
  all_goals exact ⟨false, meanings_map _ (fun c => ⟨.fing _ c, false⟩) (insts_nodup _) c⟩

theorem loadFp_spec {r : Runner} {id : Nat} {f : Fp} (hf : Fp.ofId id = some f) :
    r.loadFp id = some { r with
      sems := fun c => meanings f.bindings c ++ r.sems c
      loaded := r.loaded ++ [id]
      available := if id ∈ r.available then r.available else id :: r.available } := by
  unfold Runner.loadFp
  rw [hf]
  dsimp only
  rw [activate_eq, pushSems_eq]
  have : (Runner.pushSems { r with available := if id ∈ r.available then r.available else id :: r.available, loaded := r.loaded ++ [id] } f.bindings).sems
      = fun c => meanings f.bindings c ++ r.sems c := funext fun c => pushSems_sems _ _ c
  rw [this]

theorem pops_spec (l : List Int) (hl : l.Nodup) (r : Runner) :
    l.foldl (fun r i => (r.popSem i).2) r = { r with sems := fun c => if c ∈ l then (r.sems c).tail else r.sems c } := by
  induction l generalizing r with
  | nil => simp
  | cons x t ih =>
    have hx := (List.nodup_cons.1 hl).1
    rw [List.foldl_cons, ih (List.nodup_cons.1 hl).2]
    have : (fun c => if c ∈ t then ((r.popSem x).2.sems c).tail else (r.popSem x).2.sems c)
        = fun c => if c ∈ x :: t then (r.sems c).tail else r.sems c := by
      funext c
      simp only [Runner.popSem]
      by_cases hc : c = x
      · subst hc; simp [hx]
      · simp [hc]
    rw [this]; rfl

theorem unloadFp_spec {r : Runner} {id : Nat} {f : Fp} (hf : Fp.ofId id = some f) (ha : id ∈ r.available) :
    r.unloadFp id = some { r with
      sems := fun c => if c ∈ f.insts then (r.sems c).tail else r.sems c
      loaded := eraseLast r.loaded id } := by
  unfold Runner.unloadFp
  rw [if_pos ha, hf]
  dsimp only
  rw [pops_spec _ (insts_nodup f)]

theorem eraseLast_append (l : List Nat) (x : Nat) : eraseLast (l ++ [x]) x = l := by
  unfold eraseLast; simp

/-! ### The instructions -/

/-- The fingerprint number of a list of characters: its digits in base 256, in 64 bits. -/
def fpNum (l : List Int) : Nat := (l.foldl (fun acc x => (acc * 256 + x) % 18446744073709551616) 0).toNat

/-- The number of `HTRF`, popped in this order, is that of "FRTH" as the fingerprint list has it. -/
example : fpNum [70, 82, 84, 72] = 0x46525448 := by decide

/-- The top of the stack asks for fingerprint `id`: a count and that many characters; `m` is what lies below. -/
def St.Names (s : St) (id : Nat) (m : List Int) : Prop := ∃ l : List Int, s.items = (l.length : Int) :: (l ++ m) ∧ fpNum l = id

theorem popFingerprint_run {s : St} (h : s.Lifo) (l m : List Int) (acc : Int) (n : Nat) :
    popFingerprint l.length acc (s.setItems (l ++ m) n) =
      .ok (l.foldl (fun acc x => (acc * 256 + x) % 18446744073709551616) acc, s.setItems m (n + l.length)) := by
  induction l generalizing acc n with
  | nil => rfl
  | cons x t ih =>
    show (popTop >>= _) _ = _
    rw [bind_ok (popTop_run h _ _)]
    show popFingerprint t.length _ (s.setItems (t ++ m) (n + 1)) = _
    rw [ih]
    simp only [List.foldl_cons, List.length_cons]
    rw [show n + 1 + t.length = n + (t.length + 1) by omega]; rfl

/-- `(` with a fingerprint there is. -/
theorem iLoad_run {s : St} (h : s.Lifo) (hc : s.g.cfg.fingerprint = true) {id : Nat} {m : List Int} (hn : s.Names id m) {f : Fp}
    (hf : Fp.ofId id = some f) : ∃ n, iLoad s = .ok (.none, (((s.setTable (fun c => meanings f.bindings c ++ s.cur.sems c) (s.cur.loaded ++ [id])
      (if id ∈ s.cur.available then s.cur.available else id :: s.cur.available)).setItems (1 :: toI64 id :: m) n).switched 41)) := by
  obtain ⟨l, hi, rfl⟩ := hn
  refine ⟨s.top.ops + 1 + l.length + 1 + 1, ?_⟩
  conv => lhs; rw [← setItems_self h, hi]
  have hpos : 0 ≤ l.foldl (fun acc x => (acc * 256 + x) % 18446744073709551616) 0 := by
    cases List.eq_nil_or_concat l with
    | inl h => subst h; exact Int.le_refl 0
    | inr h => obtain ⟨a, b, rfl⟩ := h; rw [List.concat_eq_append, List.foldl_append]; exact Int.emod_nonneg _ (by decide)
  rw [iLoad, bind_ok (getCfg_run _)]
  have h1 : (s.setItems ((l.length : Int) :: (l ++ m)) s.top.ops).g.cfg.fingerprint = true := hc
  rw [if_pos h1]
  refine (bind_ok (m := popTop >>= _) (a := Err.none) (s' := (s.setTable (fun c => meanings f.bindings c ++ s.cur.sems c) (s.cur.loaded ++ [fpNum l])
      (if fpNum l ∈ s.cur.available then s.cur.available else fpNum l :: s.cur.available)).setItems (1 :: toI64 (fpNum l) :: m)
        (s.top.ops + 1 + l.length + 1 + 1)) ?_).trans ?_
  · rw [bind_ok (popTop_run h _ _)]
    dsimp only [List.headD_cons, List.tail_cons]
    rw [Int.toNat_natCast, bind_ok (popFingerprint_run h l m 0 _), bind_ok (get_run _)]
    have h2 := loadFp_spec (r := (s.setItems m (s.top.ops + 1 + l.length)).cur) hf
    unfold fpNum at h2
    rw [h2]
    dsimp only
    rw [bind_ok (modCur_run _ _)]
    have h3 : (s.setTable (fun c => meanings f.bindings c ++ s.cur.sems c) (s.cur.loaded ++ [fpNum l])
      (if fpNum l ∈ s.cur.available then s.cur.available else fpNum l :: s.cur.available)).Lifo := h
    have h4 := pushTop_run h3 m (s.top.ops + 1 + l.length) (toI64 (fpNum l))
    have h5 := pushTop_run h3 (toI64 (fpNum l) :: m) (s.top.ops + 1 + l.length + 1) 1
    have h6 : (fpNum l : Int) = l.foldl (fun acc x => (acc * 256 + x) % 18446744073709551616) 0 := Int.toNat_of_nonneg hpos
    rw [h6] at h4 h5 ⊢
    refine (bind_ok h4).trans ?_
    refine (bind_ok h5).trans ?_
    rfl
  · rw [bind_ok (switchPut_run _ _)]; rfl

/-- `)` with a fingerprint that was loaded some time before. -/
theorem iUnload_run {s : St} (h : s.Lifo) (hc : s.g.cfg.fingerprint = true) {id : Nat} {m : List Int} (hn : s.Names id m) {f : Fp}
    (hf : Fp.ofId id = some f) (ha : id ∈ s.cur.available) : ∃ n, iUnload s = .ok (.none,
      (((s.setTable (fun c => if c ∈ f.insts then (s.cur.sems c).tail else s.cur.sems c) (eraseLast s.cur.loaded id) s.cur.available).setItems m n).switched 40)) := by
  obtain ⟨l, hi, rfl⟩ := hn
  refine ⟨s.top.ops + 1 + l.length, ?_⟩
  conv => lhs; rw [← setItems_self h, hi]
  rw [iUnload, bind_ok (getCfg_run _)]
  have h1 : (s.setItems ((l.length : Int) :: (l ++ m)) s.top.ops).g.cfg.fingerprint = true := hc
  rw [if_pos h1]
  refine (bind_ok (m := popTop >>= _) (a := Err.none) (s' := (s.setTable (fun c => if c ∈ f.insts then (s.cur.sems c).tail else s.cur.sems c)
    (eraseLast s.cur.loaded (fpNum l)) s.cur.available).setItems m (s.top.ops + 1 + l.length)) ?_).trans ?_
  · rw [bind_ok (popTop_run h _ _)]
    dsimp only [List.headD_cons, List.tail_cons]
    rw [Int.toNat_natCast, bind_ok (popFingerprint_run h l m 0 _), bind_ok (get_run _)]
    have h2 := unloadFp_spec (r := (s.setItems m (s.top.ops + 1 + l.length)).cur) hf ha
    unfold fpNum at h2
    rw [h2]
    dsimp only
    rw [bind_ok (modCur_run _ _)]
    rfl
  · rw [bind_ok (switchPut_run _ _)]; rfl

/-- `)` with a fingerprint that was never loaded (or does not exist). -/
theorem iUnload_none {s : St} (h : s.Lifo) (hc : s.g.cfg.fingerprint = true) {id : Nat} {m : List Int} (hn : s.Names id m)
    (ha : id ∉ s.cur.available) : ∃ n, iUnload s = .ok (.unspec, (s.setItems m n).switched 40) := by
  obtain ⟨l, hi, rfl⟩ := hn
  refine ⟨s.top.ops + 1 + l.length, ?_⟩
  conv => lhs; rw [← setItems_self h, hi]
  rw [iUnload, bind_ok (getCfg_run _)]
  have h1 : (s.setItems ((l.length : Int) :: (l ++ m)) s.top.ops).g.cfg.fingerprint = true := hc
  rw [if_pos h1]
  refine (bind_ok (m := popTop >>= _) (a := Err.unspec) (s' := s.setItems m (s.top.ops + 1 + l.length)) ?_).trans ?_
  · rw [bind_ok (popTop_run h _ _)]
    dsimp only [List.headD_cons, List.tail_cons]
    rw [Int.toNat_natCast, bind_ok (popFingerprint_run h l m 0 _), bind_ok (get_run _)]
    have h2 : (s.setItems m (s.top.ops + 1 + l.length)).cur.unloadFp (fpNum l) = none := by
      unfold Runner.unloadFp; exact if_neg ha
    unfold fpNum at h2
    rw [h2]
    rfl
  · rw [bind_ok (switchPut_run _ _)]; rfl

theorem switched_cur (s : St) (c : Int) : (s.switched c).cur = s.cur := by unfold St.switched; split <;> rfl

/-! ### C33 -/

/-- The table, and the fingerprints loaded and known, stay the same. -/
def SameTable (s s' : St) : Prop := s'.cur.sems = s.cur.sems ∧ s'.cur.loaded = s.cur.loaded ∧ s'.cur.available = s.cur.available

theorem engine_sameTable : EngineB SameTable where
  refl _ := ⟨rfl, rfl, rfl⟩
  trans _ _ _ h h' := ⟨h'.1.trans h.1, h'.2.1.trans h.2.1, h'.2.2.trans h.2.2⟩
  stack _ _ _ _ _ _ := ⟨rfl, rfl, rfl⟩
  ssPush _ := ⟨rfl, rfl, rfl⟩
  ssPop _ _ _ := ⟨rfl, rfl, rfl⟩
  ssInsert _ _ _ _ := ⟨rfl, rfl, rfl⟩
  ssRemove _ _ _ _ := ⟨rfl, rfl, rfl⟩
  ssInc _ := ⟨rfl, rfl, rfl⟩
  ssDec _ := ⟨rfl, rfl, rfl⟩
  ip _ _ _ := ⟨rfl, rfl, rfl⟩
  stop _ := ⟨rfl, rfl, rfl⟩
  core _ _ h := ⟨h.sems, h.loaded, h.available⟩
  glob _ _ _ _ _ := ⟨rfl, rfl, rfl⟩
  ref _ _ _ _ := ⟨rfl, rfl, rfl⟩
  out _ _ := ⟨rfl, rfl, rfl⟩
  system _ _ _ := ⟨rfl, rfl, rfl⟩
  openRead _ _ _ := ⟨rfl, rfl, rfl⟩
  openWrite _ _ _ := ⟨rfl, rfl, rfl⟩
  writeFile _ _ _ _ := ⟨rfl, rfl, rfl⟩
  put _ _ _ := ⟨rfl, rfl, rfl⟩
  parse _ _ _ _ _ := ⟨rfl, rfl, rfl⟩
  dims _ _ _ := ⟨rfl, rfl, rfl⟩
  clone _ _ _ _ := ⟨rfl, rfl, rfl⟩
  kill _ _ := ⟨rfl, rfl, rfl⟩
  mode _ _ := ⟨rfl, rfl, rfl⟩

/-- **C33, C58** Only `(`, `)` and the instructions of FING (and `k`, which executes other instructions) can change the meaning of any character. -/
theorem C33_others_keep {exec : Int → Exec Err} {op : Op} (h1 : ¬ op.changesTable) (h2 : op ≠ .iterate) {s s' : St} {e : Err}
    (h : runOp exec op s = .ok (e, s')) : s'.cur.sems = s.cur.sems ∧ s'.cur.loaded = s.cur.loaded ∧ s'.cur.available = s.cur.available := by
  rw [runOp_exec h2 exec fun _ => fault .fuel] at h
  exact keeps_runOp engine_sameTable (fun _ => keeps_fault _) op (fun _ _ _ _ _ _ _ _ _ _ => ⟨rfl, rfl, rfl⟩)
    (fun _ => ⟨fun _ _ => ⟨rfl, rfl, rfl⟩, fun _ _ => ⟨rfl, rfl, rfl⟩, fun _ _ => ⟨rfl, rfl, rfl⟩⟩) (fun h => absurd h h1) _ _ _ h

/-- **C33** While loaded: right after `(` has loaded a fingerprint, each of its letters means its instruction, and every other character what it did. (DBUG is
different, see `C33_false_for_DBUG`.) -/
theorem C33_load {s : St} (h : s.Lifo) (hc : s.g.cfg.fingerprint = true) {id : Nat} {m : List Int} (hn : s.Names id m) {f : Fp}
    (hf : Fp.ofId id = some f) (hd : f ≠ .DBUG) : ∃ s', iLoad s = .ok (.none, s') ∧ s'.items = 1 :: toI64 id :: m ∧
      (∀ c ∈ f.insts, (s'.cur.meaning c).op = .fing f c) ∧ (∀ c, c ∉ f.insts → s'.cur.meaning c = s.cur.meaning c) := by
  obtain ⟨n, hr⟩ := iLoad_run h hc hn hf
  refine ⟨_, hr, ?_, ?_, ?_⟩
  · unfold St.items St.top
    rw [switched_cur]
    exact items_setItems (s := s.setTable _ _ _) h _ n
  · intro c hcf
    obtain ⟨b, hb⟩ := bindings_meanings hd c
    rw [if_pos hcf] at hb
    unfold Runner.meaning Runner.getSem
    rw [switched_cur]
    show ((meanings f.bindings c ++ s.cur.sems c).head?.getD _).op = _
    rw [hb]; rfl
  · intro c hcf
    obtain ⟨b, hb⟩ := bindings_meanings hd c
    rw [if_neg hcf] at hb
    unfold Runner.meaning Runner.getSem
    rw [switched_cur]
    show (meanings f.bindings c ++ s.cur.sems c).head?.getD _ = _
    rw [hb]; rfl

/-- A properly nested piece of an execution: any instructions, where each fingerprint that `(` loads is unloaded by a `)` of the same fingerprint before the piece ends,
and the piece between them is properly nested. -/
inductive Nested : St → St → Prop
  | done (s : St) : Nested s s
  | other {s s1 s2 : St} {exec : Int → Exec Err} {op : Op} {e : Err} : ¬ op.changesTable → op ≠ .iterate → runOp exec op s = .ok (e, s1) →
      Nested s1 s2 → Nested s s2
  | between {s s1 s2 : St} : SameTable s s1 → Nested s1 s2 → Nested s s2
  | block {s s1 s2 s3 s4 : St} {id : Nat} {f : Fp} {m m' : List Int} : s.Lifo → s.g.cfg.fingerprint = true → s.Names id m → Fp.ofId id = some f →
      f ≠ .DBUG → iLoad s = .ok (.none, s1) → Nested s1 s2 → s2.Lifo → s2.g.cfg.fingerprint = true → s2.Names id m' →
      iUnload s2 = .ok (.none, s3) → Nested s3 s4 → Nested s s4

/-- **C33** After a properly nested sequence of loads and unloads, with any other instructions between them, every character means what it meant before; the list of
loaded fingerprints is the same, too. Partial: not for DBUG. -/
theorem C33_nested_partial {s s' : St} (h : Nested s s') : s'.cur.sems = s.cur.sems ∧ s'.cur.loaded = s.cur.loaded ∧
    ∀ x ∈ s.cur.available, x ∈ s'.cur.available := by
  induction h with
  | done s => exact ⟨rfl, rfl, fun _ h => h⟩
  | other h1 h2 h3 _ ih =>
    obtain ⟨a, b, c⟩ := C33_others_keep h1 h2 h3
    exact ⟨ih.1.trans a, ih.2.1.trans b, fun x hx => ih.2.2 x (c ▸ hx)⟩
  | between h1 _ ih => exact ⟨ih.1.trans h1.1, ih.2.1.trans h1.2.1, fun x hx => ih.2.2 x (h1.2.2 ▸ hx)⟩
  | @block s s1 s2 s3 s4 id f m m' hl hc hn hf hd h1 _ hl2 hc2 hn2 h3 _ ih1 ih2 =>
    obtain ⟨n, hr⟩ := iLoad_run hl hc hn hf
    rw [hr] at h1
    cases h1
    rw [switched_cur] at ih1
    obtain ⟨a1, b1, c1⟩ := ih1
    have hav : id ∈ s2.cur.available := by
      refine c1 id ?_
      show id ∈ if id ∈ s.cur.available then s.cur.available else id :: s.cur.available
      split
      · assumption
      · exact List.mem_cons_self
    obtain ⟨n2, hr2⟩ := iUnload_run hl2 hc2 hn2 hf hav
    rw [hr2] at h3
    cases h3
    rw [switched_cur] at ih2
    obtain ⟨a2, b2, c2⟩ := ih2
    refine ⟨a2.trans ?_, b2.trans ?_, fun x hx => c2 x (c1 x ?_)⟩
    · show (fun c => if c ∈ f.insts then (s2.cur.sems c).tail else s2.cur.sems c) = _
      funext c
      rw [a1]
      obtain ⟨b, hb⟩ := bindings_meanings hd c
      show (if c ∈ f.insts then (meanings f.bindings c ++ s.cur.sems c).tail else meanings f.bindings c ++ s.cur.sems c) = _
      rw [hb]
      split
      · rfl
      · rfl
    · show eraseLast s2.cur.loaded id = _
      rw [b1]
      exact eraseLast_append _ _
    · show x ∈ if id ∈ s.cur.available then s.cur.available else id :: s.cur.available
      split
      · exact hx
      · exact List.mem_cons_of_mem _ hx

/-- A Befunge-98 program with these fingerprints loaded at the start. -/
def exFing (fps : List Nat) (cells : List Int) : St := machineWith { dims := 2, standard := 98, fingerprints := fps } [cells, [64]]

/-- What character `c` executes after `n` ticks. -/
def opAfter (s : St) (n : Nat) (c : Int) : Option (Option Op) :=
  match ticks n s with
  | .ok (_, s') => some ((s'.cur.getSem c).map (·.op))
  | .error _ => none

/-- `"HTRF"4(`: the hypotheses of `C33_load` are met with the text on the stack. -/
example : ((exFing [] [40]).setItems [4, 70, 82, 84, 72, 9] 6).Lifo ∧ (exFing [] [40]).g.cfg.fingerprint = true ∧
    ((exFing [] [40]).setItems [4, 70, 82, 84, 72, 9] 6).Names 0x46525448 [9] ∧ Fp.ofId 0x46525448 = some .FRTH :=
  ⟨by decide +kernel, by decide, ⟨[70, 82, 84, 72], by decide +kernel, by decide⟩, rfl⟩

/-- A properly nested sequence: `"HTRF"4(` and, with anything else between, `"HTRF"4)`. -/
theorem exNestedFing : ∃ s s' : St, Nested s s' ∧ s.cur.ip = s'.cur.ip ∧ s'.items = [9] := by
  let s := (exFing [] [40]).setItems [4, 70, 82, 84, 72, 9] 6
  have hl : s.Lifo := by decide +kernel
  have hn : s.Names 0x46525448 [9] := ⟨[70, 82, 84, 72], by decide +kernel, by decide⟩
  obtain ⟨n, h1⟩ := iLoad_run hl (by decide) hn (f := .FRTH) rfl
  let t := s.setTable (fun c => meanings Fp.FRTH.bindings c ++ s.cur.sems c) (s.cur.loaded ++ [0x46525448])
    (if 0x46525448 ∈ s.cur.available then s.cur.available else 0x46525448 :: s.cur.available)
  have ht : t.Lifo := hl
  let t1 := t.setItems (4 :: 70 :: 82 :: 84 :: 72 :: [9]) 0
  have ht1 : t1.Lifo := lifo_setItems ht _ _
  have hn1 : t1.Names 0x46525448 [9] := ⟨[70, 82, 84, 72], items_setItems ht _ _, by decide⟩
  have hav : 0x46525448 ∈ t1.cur.available := by
    show _ ∈ if 0x46525448 ∈ s.cur.available then s.cur.available else 0x46525448 :: s.cur.available
    split
    · assumption
    · exact List.mem_cons_self
  obtain ⟨n2, h2⟩ := iUnload_run ht1 (by decide) hn1 (f := .FRTH) rfl hav
  refine ⟨s, _, .block (f := .FRTH) hl (by decide) hn rfl (by decide) h1 (.between (s1 := t1) ?_ (.done _)) ht1 (by decide) hn1 h2 (.done _), ?_, ?_⟩
  · unfold SameTable
    rw [switched_cur]
    exact ⟨rfl, rfl, rfl⟩
  · rw [switched_cur]; rfl
  · unfold St.items St.top
    rw [switched_cur]
    exact items_setItems (s := t1.setTable _ _ _) ht1 _ n2

/-- **C33** is false for DBUG: with FRTH loaded, `"GUBD"4(` and `"GUBD"4)` leave `D` without a meaning, which was `D` of FRTH. -/
theorem C33_false_for_DBUG :
    let s := exFing [0x46525448] ([34, 71, 85, 66, 68, 34, 52, 40] ++ [34, 71, 85, 66, 68, 34, 52, 41])
    opAfter s 0 68 = some (some (.fing .FRTH 68)) ∧ opAfter s 8 68 = some (some (.fing .FRTH 68)) ∧ opAfter s 16 68 = some none := by decide +kernel

/-! ### C34 -/

/-- **C34** `)` with a fingerprint that this IP has never loaded leaves every meaning unchanged and is an error (which makes the IP reflect). Partial: a fingerprint that
was loaded and has been unloaded since counts as known, see `C34_false_after_unload`. -/
theorem C34_never_loaded_partial {s : St} (h : s.Lifo) (hc : s.g.cfg.fingerprint = true) {id : Nat} {m : List Int} (hn : s.Names id m)
    (ha : id ∉ s.cur.available) : ∃ s', iUnload s = .ok (.unspec, s') ∧ s'.cur.sems = s.cur.sems ∧ s'.cur.loaded = s.cur.loaded ∧ s'.items = m := by
  obtain ⟨n, hr⟩ := iUnload_none h hc hn ha
  refine ⟨_, hr, by rw [switched_cur]; rfl, by rw [switched_cur]; rfl, ?_⟩
  unfold St.items St.top
  rw [switched_cur]
  exact items_setItems h _ n

/-- **C34** The error makes the IP of a Funge program turn around and go on in the opposite direction. -/
theorem C34_reflects {s : St} (h : s.cur.handler = .funge) : handle .unspec s = (do ipNext; pure .unspec : Exec Err) (s.setIP s.cur.ip.reflect) := by
  unfold handle; rw [bind_ok (get_run s), h]; rfl

/-- The hypotheses of `C34_never_loaded_partial` are met. -/
example : ((exFing [] [41]).setItems [4, 70, 82, 84, 72, 9] 6).Lifo ∧ (exFing [] [41]).g.cfg.fingerprint = true ∧
    ((exFing [] [41]).setItems [4, 70, 82, 84, 72, 9] 6).Names 0x46525448 [9] ∧ 0x46525448 ∉ (exFing [] [41]).cur.available :=
  ⟨by decide +kernel, by decide, ⟨[70, 82, 84, 72], by decide +kernel, by decide⟩, by decide +kernel⟩

/-- **C34** is false for a fingerprint that was loaded and unloaded before: with FRTH loaded, `"NRTS"4(`, `"NRTS"4)` and again `"NRTS"4)`, which does not reflect
(the IP reaches the next instruction, `7`) but takes away the meaning of `D` of FRTH. -/
theorem C34_false_after_unload :
    let s := exFing [0x46525448] ([34, 78, 82, 84, 83, 34, 52, 40] ++ [34, 78, 82, 84, 83, 34, 52, 41] ++ [34, 78, 82, 84, 83, 34, 52, 41, 55])
    opAfter s 16 68 = some (some (.fing .FRTH 68)) ∧ opAfter s 24 68 = some none ∧ (stackAfter s 25).map (·.head?) = some (some 7) := by decide +kernel

/-! ### C58 -/

/-- The letter a number stands for in FING: itself, or counted from 0. -/
def letterOf (a b : Int) : Prop := (65 ≤ a ∧ a ≤ 90 ∧ b = a) ∨ (0 ≤ a ∧ a ≤ 25 ∧ b = a + 65)

theorem fingLetter_of {a b : Int} (h : letterOf a b) : fingLetter a = some b := by
  unfold fingLetter
  rcases h with ⟨h1, h2, rfl⟩ | ⟨h1, h2, rfl⟩
  · have e : ¬ (0 ≤ b ∧ b ≤ 25) := by omega
    simp only [e, if_false]; rw [if_pos ⟨h1, h2⟩]
  · have e : 65 ≤ a + 65 ∧ a + 65 ≤ 90 := by omega
    simp only [h1, h2, and_self, if_true]; rw [if_pos e]

/-- **C58** `X` exchanges the meanings of two letters and changes no other meaning; what lies below (what a later `)` or `Y` will reveal) stays. -/
theorem C58_swap {s : St} (h : s.Lifo) {a b a' b' : Int} {l : List Int} (hi : s.items = a :: b :: l) (ha : letterOf a a') (hb : letterOf b b') :
    ∃ s', fingSwap s = .ok (.none, s') ∧ s'.items = l ∧ s'.cur.meaning a' = s.cur.meaning b' ∧ s'.cur.meaning b' = s.cur.meaning a' ∧
      (∀ c, c ≠ a' → c ≠ b' → s'.cur.sems c = s.cur.sems c) ∧ (a' ≠ b' → ∀ c, (s'.cur.sems c).tail = (s.cur.sems c).tail) := by
  have h1 : fingSwap s = .ok (.none, (s.setTable
      (((((s.cur.popSem a').2.popSem b').2.pushSem a' (semOr ((s.cur.popSem a').2.popSem b').1)).pushSem b' (semOr (s.cur.popSem a').1)).sems)
      s.cur.loaded s.cur.available).setItems l (s.top.ops + 1 + 1)) := by
    conv => lhs; rw [← setItems_self h, hi]
    rw [fingSwap, bind_ok (popTop_run h _ _)]
    dsimp only [List.headD_cons, List.tail_cons]
    rw [fingLetter_of ha]
    dsimp only
    rw [bind_ok (popTop_run h _ _)]
    dsimp only [List.headD_cons, List.tail_cons]
    rw [fingLetter_of hb]
    dsimp only
    rw [bind_ok (modCur_run _ _)]
    rfl
  refine ⟨_, h1, items_setItems (s := s.setTable _ _ _) h _ _, ?_, ?_, ?_, ?_⟩
  · unfold Runner.meaning Runner.getSem
    simp only [St.setTable, setItems_sems, Runner.pushSem, Runner.popSem, semOr]
    by_cases hab : a' = b'
    · subst hab; cases s.cur.sems a' <;> simp
    · have : b' ≠ a' := fun h => hab h.symm
      simp [hab, this]
  · unfold Runner.meaning Runner.getSem
    simp only [St.setTable, setItems_sems, Runner.pushSem, Runner.popSem, semOr]
    simp
  · intro c hca hcb
    simp [St.setTable, setItems_sems, Runner.pushSem, Runner.popSem, hca, hcb]
  · intro hab c
    have hba : b' ≠ a' := fun h => hab h.symm
    simp only [St.setTable, setItems_sems, Runner.pushSem, Runner.popSem]
    by_cases h1 : c = a'
    · subst h1; simp [hab]
    · by_cases h2 : c = b'
      · subst h2; simp [hba]
      · simp [h1, h2]

/-- **C58** `X` twice with the same letters restores every meaning. -/
theorem C58_swap_twice {s s' t : St} (h : s.Lifo) (ht : t.Lifo) {a b a2 b2 a' b' : Int} {l l2 : List Int} (hi : s.items = a :: b :: l) (ha : letterOf a a')
    (hb : letterOf b b') (hs : fingSwap s = .ok (.none, s')) (hk : t.cur.sems = s'.cur.sems) (hi2 : t.items = a2 :: b2 :: l2) (ha2 : letterOf a2 a')
    (hb2 : letterOf b2 b') : ∃ t', fingSwap t = .ok (.none, t') ∧ ∀ c, t'.cur.meaning c = s.cur.meaning c := by
  obtain ⟨s1, h1, _, h2, h3, h4, _⟩ := C58_swap h hi ha hb
  rw [h1] at hs; cases hs
  obtain ⟨t1, g1, _, g2, g3, g4, _⟩ := C58_swap ht hi2 ha2 hb2
  have hm : ∀ c, t.cur.meaning c = s'.cur.meaning c := fun c => by unfold Runner.meaning Runner.getSem; rw [hk]
  refine ⟨t1, g1, fun c => ?_⟩
  by_cases hca : c = a'
  · subst hca; rw [g2, hm, h3]
  · by_cases hcb : c = b'
    · subst hcb; rw [g3, hm, h2]
    · unfold Runner.meaning Runner.getSem
      rw [g4 c hca hcb, hk, h4 c hca hcb]

/-- **C58** `Y` drops the current meaning of one letter and uncovers the one before; nothing else changes. -/
theorem C58_drop {s : St} (h : s.Lifo) {a a' : Int} {l : List Int} (hi : s.items = a :: l) (ha : letterOf a a') :
    ∃ s', fingPop s = .ok (.none, s') ∧ s'.items = l ∧ s'.cur.sems a' = (s.cur.sems a').tail ∧ ∀ c, c ≠ a' → s'.cur.sems c = s.cur.sems c := by
  have h1 : fingPop s = .ok (.none, (s.setTable ((s.cur.popSem a').2.sems) s.cur.loaded s.cur.available).setItems l (s.top.ops + 1)) := by
    conv => lhs; rw [← setItems_self h, hi]
    rw [fingPop, bind_ok (popTop_run h _ _)]
    dsimp only [List.headD_cons, List.tail_cons]
    rw [fingLetter_of ha]
    dsimp only
    rw [bind_ok (modCur_run _ _)]
    rfl
  refine ⟨_, h1, items_setItems (s := s.setTable _ _ _) h _ _, ?_, fun c hc => ?_⟩
  · simp [St.setTable, setItems_sems, Runner.popSem]
  · simp [St.setTable, setItems_sems, Runner.popSem, hc]

/-- **C58** `Z` gives the letter named by the top of the stack the meaning of the one below, on top of what it meant; nothing else changes. -/
theorem C58_copy {s : St} (h : s.Lifo) {a b a' b' : Int} {l : List Int} (hi : s.items = a :: b :: l) (ha : letterOf a a') (hb : letterOf b b') :
    ∃ s', fingCopy s = .ok (.none, s') ∧ s'.items = l ∧ s'.cur.sems a' = s.cur.meaning b' :: s.cur.sems a' ∧
      ∀ c, c ≠ a' → s'.cur.sems c = s.cur.sems c := by
  have h1 : fingCopy s = .ok (.none, (s.setTable ((s.cur.pushSem a' (s.cur.meaning b')).sems) s.cur.loaded s.cur.available).setItems l (s.top.ops + 1 + 1)) := by
    conv => lhs; rw [← setItems_self h, hi]
    rw [fingCopy, bind_ok (popTop_run h _ _)]
    dsimp only [List.headD_cons, List.tail_cons]
    rw [fingLetter_of ha]
    dsimp only
    rw [bind_ok (popTop_run h _ _)]
    dsimp only [List.headD_cons, List.tail_cons]
    rw [fingLetter_of hb]
    dsimp only
    rw [bind_ok (modCur_run _ _)]
    rfl
  refine ⟨_, h1, items_setItems (s := s.setTable _ _ _) h _ _, ?_, fun c hc => ?_⟩
  · simp [St.setTable, setItems_sems, Runner.pushSem]
  · simp [St.setTable, setItems_sems, Runner.pushSem, hc]

/-- **C58** A value that names no letter is an error and changes no meaning. -/
theorem C58_no_letter {s : St} (h : s.Lifo) {a : Int} {l : List Int} (hi : s.items = a :: l) (ha : ∀ b, ¬ letterOf a b) :
    (∃ s', fingSwap s = .ok (.unspec, s') ∧ s.Leaves s' l) ∧ (∃ s', fingPop s = .ok (.unspec, s') ∧ s.Leaves s' l) ∧
      (∃ s', fingCopy s = .ok (.unspec, s') ∧ s.Leaves s' l) := by
  have h0 : fingLetter a = none := by
    unfold fingLetter
    dsimp only
    have h1 : ¬ (0 ≤ a ∧ a ≤ 25) := fun h => ha (a + 65) (.inr ⟨h.1, h.2, rfl⟩)
    have h2 : ¬ (65 ≤ a ∧ a ≤ 90) := fun h => ha a (.inl ⟨h.1, h.2, rfl⟩)
    simp only [h1, if_false]; rw [if_neg h2]
  refine ⟨⟨_, ?_, s.top.ops + 1, rfl⟩, ⟨_, ?_, s.top.ops + 1, rfl⟩, ⟨_, ?_, s.top.ops + 1, rfl⟩⟩
  all_goals
    conv => lhs; rw [← setItems_self h, hi]
  · rw [fingSwap, bind_ok (popTop_run h _ _)]
    dsimp only [List.headD_cons, List.tail_cons]
    rw [h0]; rfl
  · rw [fingPop, bind_ok (popTop_run h _ _)]
    dsimp only [List.headD_cons, List.tail_cons]
    rw [h0]; rfl
  · rw [fingCopy, bind_ok (popTop_run h _ _)]
    dsimp only [List.headD_cons, List.tail_cons]
    rw [h0]; rfl

/-- The hypotheses of the laws of FING are met: `A` given as a letter and as a number. -/
example : letterOf 65 65 ∧ letterOf 0 65 ∧ letterOf 25 90 ∧ ∀ b, ¬ letterOf 26 b :=
  ⟨.inl (by decide), .inr (by decide), .inr (by decide), fun b h => by unfold letterOf at h; omega⟩
example : ((exFing [0x46494e47, 0x46525448] [88]).setItems [68, 76, 9] 3).Lifo ∧
    ((exFing [0x46494e47, 0x46525448] [88]).setItems [68, 76, 9] 3).items = [68, 76, 9] ∧
    (exFing [0x46494e47, 0x46525448] [88]).cur.meaning 68 ≠ (exFing [0x46494e47, 0x46525448] [88]).cur.meaning 76 := by decide +kernel

/-! ### C62 -/

/-- The meanings of a letter after loading these fingerprints in this order, latest first. -/
def loadedMeanings : List Nat → Int → List Sem
  | [], _ => []
  | id :: t, c => loadedMeanings t c ++ ((Fp.ofId id).map fun f => meanings f.bindings c).getD []

theorem loadedMeanings_append (l m : List Nat) (c : Int) : loadedMeanings (l ++ m) c = loadedMeanings m c ++ loadedMeanings l c := by
  induction l with
  | nil => simp [loadedMeanings]
  | cons x t ih => simp [loadedMeanings, ih]

/-- This IP of a Funge-98 program understands each letter as after loading its list of fingerprints in order. -/
def Runner.Regular (r : Runner) : Prop := ∀ c, isLetter c → r.sems c = loadedMeanings r.loaded c

theorem loadFps_sems (l : List Nat) (r : Runner) (c : Int) : (r.loadFps l).sems c = loadedMeanings l c ++ r.sems c := by
  unfold Runner.loadFps
  induction l generalizing r with
  | nil => rfl
  | cons id t ih =>
    rw [List.foldl_cons, ih]
    cases hf : Fp.ofId id with
    | none =>
      have : r.loadFp id = none := by unfold Runner.loadFp; rw [hf]
      rw [this]; simp [loadedMeanings, hf]
    | some f => rw [loadFp_spec hf]; simp [loadedMeanings, hf]

theorem loadFps_loaded (l : List Nat) (r : Runner) : (r.loadFps l).loaded = r.loaded ++ l.filter fun id => (Fp.ofId id).isSome := by
  unfold Runner.loadFps
  induction l generalizing r with
  | nil => simp
  | cons id t ih =>
    rw [List.foldl_cons, ih]
    cases hf : Fp.ofId id with
    | none =>
      have : r.loadFp id = none := by unfold Runner.loadFp; rw [hf]
      rw [this]; simp [hf]
    | some f => rw [loadFp_spec hf]; simp [hf]

theorem loadedMeanings_known (l : List Nat) (c : Int) : loadedMeanings (l.filter fun id => (Fp.ofId id).isSome) c = loadedMeanings l c := by
  induction l with
  | nil => rfl
  | cons id t ih =>
    rw [List.filter_cons]
    cases hf : Fp.ofId id with
    | none => simp [loadedMeanings, hf, ih]
    | some f => simp [loadedMeanings, hf, ih]

/-- The strategies of Funge-98 in 1, 2 or 3 and more dimensions. -/
def isFunge98 (S : List Strat) : Prop := S = [.une93, .une98] ∨ S = [.une93, .une98, .be93, .be98] ∨ S = [.une93, .une98, .be93, .be98, .tre98]

theorem noLetters {l : List (Int × Sem)} (hl : ∀ p ∈ l, ¬ (65 ≤ p.1 ∧ p.1 ≤ 90)) {c : Int} (hc : isLetter c) : meanings l c = [] :=
  meanings_nil fun p hp he => hl p hp (he ▸ hc)

theorem inits_letters {S : List Strat} (hS : isFunge98 S) (fps : List Nat) (r : Runner) {c : Int} (hc : isLetter c) :
    (S.foldl (Strat.init fps) r).sems c = loadedMeanings fps c ++ r.sems c := by
  have h1 := noLetters (l := semsUne93) (by decide) hc
  have h2 := noLetters (l := semsUne98) (by decide) hc
  have h3 := noLetters (l := semsBe93) (by decide) hc
  have h4 := noLetters (l := semsBe98) (by decide) hc
  have h5 := noLetters (l := semsTre98) (by decide) hc
  rcases hS with rfl | rfl | rfl <;>
    simp [Strat.init, pushSems_sems, loadFps_sems, h1, h2, h3, h4, h5]

theorem pushSems_loaded (l : List (Int × Sem)) (r : Runner) : (r.pushSems l).loaded = r.loaded := by rw [pushSems_eq]

theorem inits_loaded {S : List Strat} (hS : isFunge98 S) (fps : List Nat) (r : Runner) :
    (S.foldl (Strat.init fps) r).loaded = r.loaded ++ fps.filter fun id => (Fp.ofId id).isSome := by
  rcases hS with rfl | rfl | rfl <;> simp [Strat.init, pushSems_loaded, loadFps_loaded]

/-- **C62** Every IP a Funge-98 program starts with is regular. -/
theorem C62_start {cfg : Cfg} (hS : isFunge98 (strategiesFor cfg)) (id : Nat) (pos delta : Vec) : (newRunner cfg id pos delta).Regular := by
  intro c hc
  unfold newRunner
  dsimp only
  rw [notifyDelta_sems, (notifyDelta_core _).loaded]
  dsimp only
  rw [inits_letters hS _ _ hc, inits_loaded hS, List.nil_append, loadedMeanings_known]
  simp

/-- **C62** Loading a fingerprint keeps an IP regular. -/
theorem C62_load {s s' : St} (h : s.Lifo) (hc : s.g.cfg.fingerprint = true) {id : Nat} {m : List Int} (hn : s.Names id m) {f : Fp} (hf : Fp.ofId id = some f)
    (hr : s.cur.Regular) (hl : iLoad s = .ok (.none, s')) : s'.cur.Regular := by
  obtain ⟨n, h1⟩ := iLoad_run h hc hn hf
  rw [h1] at hl
  cases hl
  rw [switched_cur]
  intro c hcl
  show meanings f.bindings c ++ s.cur.sems c = loadedMeanings (s.cur.loaded ++ [id]) c
  rw [hr c hcl, loadedMeanings_append]
  simp [loadedMeanings, hf]

/-- **C62** A properly nested piece of an execution keeps an IP regular. -/
theorem C62_nested {s s' : St} (h : Nested s s') (hr : s.cur.Regular) : s'.cur.Regular := by
  obtain ⟨h1, h2, _⟩ := C33_nested_partial h
  intro c hc
  rw [h1, h2]; exact hr c hc

/-- **C62** The twin of a regular IP understands every letter exactly as its parent does, and is regular again. Partial: not after FING or unloading in another order
than loading, see `C62_false_after_FING`. -/
theorem C62_twin_partial {p r : Runner} {g : Glob} {id : Nat} (hS : isFunge98 p.strats) (hp : p.Regular) (hk : ∀ x ∈ p.loaded, (Fp.ofId x).isSome)
    (h : p.clone g id = .ok r) : (∀ c, isLetter c → r.sems c = p.sems c) ∧ r.loaded = p.loaded ∧ r.strats = p.strats ∧ r.Regular := by
  have hm : p.strats.map Strat.cloned = p.strats := by
    rcases hS with h | h | h <;> rw [h] <;> rfl
  unfold Runner.clone at h
  dsimp only at h
  rw [hm] at h
  split at h
  · cases h
  · cases h
    have hl : (p.strats.foldl (Strat.init p.loaded) { id := id, strats := p.strats, ss := p.ss.copy, ip := p.ip, parent := some p.id }).loaded = p.loaded := by
      rw [inits_loaded hS]
      rw [List.filter_eq_self.2 hk]; rfl
    have hs : ∀ c, isLetter c →
        (p.strats.foldl (Strat.init p.loaded) { id := id, strats := p.strats, ss := p.ss.copy, ip := p.ip, parent := some p.id }).sems c = p.sems c := by
      intro c hc
      rw [inits_letters hS _ _ hc, hp c hc]; simp
    refine ⟨hs, hl, (inits_same p.loaded _ _).strats, fun c hc => ?_⟩
    dsimp only
    rw [hs c hc, hl]
    exact hp c hc

/-- What character `c` means to the runners after `n` ticks of the first one. -/
def opsAfter (s : St) (n : Nat) (c : Int) : Option (List (Option Op)) :=
  match ticks n s with
  | .ok (_, s') => some ((s'.cur :: s'.rest).map fun r => (r.getSem c).map (·.op))
  | .error _ => none

/-- The hypotheses of `C62_twin_partial` are met: a twin of an IP with FRTH loaded. -/
example : isFunge98 (exFing [0x46525448] [116]).cur.strats ∧ (∀ x ∈ (exFing [0x46525448] [116]).cur.loaded, (Fp.ofId x).isSome) ∧
    opsAfter (exFing [0x46525448] [116]) 1 68 = some [some (.fing .FRTH 68), some (.fing .FRTH 68)] :=
  ⟨.inr (.inl (by decide +kernel)), by decide +kernel, by decide +kernel⟩

/-- **C62** is false after FING: with FING and FRTH loaded, `'D'AZ` gives `A` the meaning of `D`; a twin made by `t` then does not understand `A`. -/
theorem C62_false_after_FING :
    opsAfter (exFing [0x46494e47, 0x46525448] [39, 68, 39, 65, 90, 116]) 4 65 = some [some (.fing .FRTH 68), none] := by decide +kernel

end Funge
