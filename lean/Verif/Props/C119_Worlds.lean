import Verif.Lemmas.Worlds
import Verif.Props.C32_Permissions
import Verif.Props.C30_Schedule
import Verif.Props.C83_Mvrs
/-
Whole runs of several universes, in any order of their turns. C119: what every universe forbids. C120: where the IPs are.
-/
namespace Funge
open Exec MExec

/-! ### Specification -/

/-- The name and the permissions of a universe. -/
def Cfg.rights (c : Cfg) : List Int × Bool × Bool × Bool × Bool := (c.name, c.execute, c.filesystem, c.concurrent, c.fingerprint)

/-- The names and permissions of all universes. -/
def World.rights (w : World) : List (List Int × Bool × Bool × Bool × Bool) := w.unis.map (·.cfg.rights)

/-- No two universes have the same name: `FungeMultiverse::universes` is a map (/repo/src/include/FungeMultiverse.h). -/
def World.Named (w : World) : Prop := (w.unis.map (·.cfg.name)).Nodup

/-- The identities of the IPs of all universes. -/
def World.ids (w : World) : List Nat := w.unis.flatMap fun u => u.runners.map (·.id)

/-! ### One tick -/

theorem Engine.and {P Q : St → St → Prop} (E : Engine P) (F : Engine Q) : Engine fun s s' => P s s' ∧ Q s s' where
  refl s := ⟨E.refl s, F.refl s⟩
  trans s t u h h' := ⟨E.trans s t u h.1 h'.1, F.trans s t u h.2 h'.2⟩
  stack s x st st' h h' := ⟨E.stack s x st st' h h', F.stack s x st st' h h'⟩
  ssPush s := ⟨E.ssPush s, F.ssPush s⟩
  ssPop s ss h := ⟨E.ssPop s ss h, F.ssPop s ss h⟩
  ssInsert s n ss h := ⟨E.ssInsert s n ss h, F.ssInsert s n ss h⟩
  ssRemove s n ss h := ⟨E.ssRemove s n ss h, F.ssRemove s n ss h⟩
  ssInc s := ⟨E.ssInc s, F.ssInc s⟩
  ssDec s := ⟨E.ssDec s, F.ssDec s⟩
  ip s ip h := ⟨E.ip s ip h, F.ip s ip h⟩
  stop s := ⟨E.stop s, F.stop s⟩
  core s r h := ⟨E.core s r h, F.core s r h⟩
  sems s t l h h' := ⟨E.sems s t l h h', F.sems s t l h h'⟩
  load s id r h h' := ⟨E.load s id r h h', F.load s id r h h'⟩
  glob s i a b w := ⟨E.glob s i a b w, F.glob s i a b w⟩
  ref s r v h := ⟨E.ref s r v h, F.ref s r v h⟩
  out s b := ⟨E.out s b, F.out s b⟩
  system s b h := ⟨E.system s b h, F.system s b h⟩
  openRead s b h := ⟨E.openRead s b h, F.openRead s b h⟩
  openWrite s b h := ⟨E.openWrite s b h, F.openWrite s b h⟩
  writeFile s b c h := ⟨E.writeFile s b c h, F.writeFile s b c h⟩
  put s v i := ⟨E.put s v i, F.put s v i⟩
  parse s v b l h := ⟨E.parse s v b l h, F.parse s v b l h⟩
  dims s n h := ⟨E.dims s n h, F.dims s n h⟩
  clone s r h h' := ⟨E.clone s r h h', F.clone s r h h'⟩
  kill s c := ⟨E.kill s c, F.kill s c⟩
  mode s m := ⟨E.mode s m, F.mode s m⟩

theorem engine_permitted : Engine fun s s' => Effects Permitted s.g s'.g := by
  refine engine_effects ?_ ?_ ?_ ?_ ?_ ?_
  · intro c c' e h h' ⟨hp, hq⟩
    exact ⟨fun he => h.trans (hp he), fun he hd => h'.trans (hq he hd)⟩
  · intro c b; exact ⟨nofun, nofun⟩
  · intro c b h; exact ⟨fun _ => h, nofun⟩
  · intro c b h; exact ⟨nofun, fun _ _ => h⟩
  · intro c b h; exact ⟨nofun, fun _ _ => h⟩
  · intro c b d h; exact ⟨nofun, fun _ _ => h⟩

theorem engine_name : Engine fun s s' => s'.g.cfg.name = s.g.cfg.name where
  refl _ := rfl
  trans _ _ _ h h' := h'.trans h
  stack _ _ _ _ _ _ := rfl
  ssPush _ := rfl
  ssPop _ _ _ := rfl
  ssInsert _ _ _ _ := rfl
  ssRemove _ _ _ _ := rfl
  ssInc _ := rfl
  ssDec _ := rfl
  ip _ _ _ := rfl
  stop _ := rfl
  core _ _ _ := rfl
  sems _ _ _ _ _ := rfl
  load _ _ _ _ _ := rfl
  glob _ _ _ _ _ := rfl
  ref _ _ _ _ := rfl
  out _ _ := rfl
  system _ _ _ := rfl
  openRead _ _ _ := rfl
  openWrite _ _ _ := rfl
  writeFile _ _ _ _ := rfl
  put _ _ _ := rfl
  parse _ _ _ _ _ := rfl
  dims _ _ _ := rfl
  clone _ _ _ _ := rfl
  kill _ _ := rfl
  mode _ _ := rfl

/-- What an instruction that concerns one universe does to it. -/
def Minds (s s' : St) : Prop := Effects Permitted s.g s'.g ∧ s'.g.cfg.name = s.g.cfg.name ∧ Population s s'

theorem engine_minds : Engine Minds := engine_permitted.and (engine_name.and engine_population)

theorem others_minds : Others Minds := fun s a b r st st' hr h h' => ⟨.refl _ _, rfl, others_population s a b r st st' hr h h'⟩

theorem dirs_minds : Dirs Minds :=
  ⟨fun s b => ⟨.one ⟨nofun, nofun⟩, rfl, dirs_population.1 s b⟩, fun s b => ⟨.one ⟨nofun, nofun⟩, rfl, dirs_population.2.1 s b⟩,
    fun s b => ⟨.one ⟨nofun, nofun⟩, rfl, dirs_population.2.2 s b⟩⟩

def Multi.rights (w : Multi) : List (List Int × Bool × Bool × Bool × Bool) := w.st.g.cfg.rights :: w.others.map (·.cfg.rights)

def Multi.ids (w : Multi) : List Nat := w.st.cur.id :: (w.st.rest.map (·.id) ++ w.others.flatMap fun u => u.runners.map (·.id))

/-- Some of these universes allows this effect (or it needs no permission). -/
def AllowedBy (l : List (List Int × Bool × Bool × Bool × Bool)) (e : Eff) : Prop :=
  (e.isCommand = true → ∃ k ∈ l, k.2.1 = true) ∧ (e.isFile = true → e.isDir = false → ∃ k ∈ l, k.2.2.1 = true)

theorem AllowedBy.mono {l l' : List (List Int × Bool × Bool × Bool × Bool)} {e : Eff} (h : AllowedBy l e) (hs : ∀ k ∈ l, k ∈ l') : AllowedBy l' e :=
  ⟨fun a => (h.1 a).elim fun k hk => ⟨k, hs k hk.1, hk.2⟩, fun a b => (h.2 a b).elim fun k hk => ⟨k, hs k hk.1, hk.2⟩⟩

structure Multi.Goes (w w' : Multi) : Prop where
  me : w'.st.cur.id = w.st.cur.id
  named : (w'.rights.map (·.1)).Nodup
  rights : ∃ extra, w'.rights.Perm (w.rights ++ extra)
  eff : ∃ new, w'.st.g.eff = w.st.g.eff ++ new ∧ ∀ e ∈ new, AllowedBy w'.rights e
  ids : ∃ k, w'.st.g.nextId = w.st.g.nextId + k ∧ w'.ids.Perm (w.ids ++ List.range' w.st.g.nextId k)

def Multi.Went (w w' : Multi) : Prop := (w.rights.map (·.1)).Nodup → w.Goes w'

theorem Multi.Goes.same {w w' : Multi} (hn : (w.rights.map (·.1)).Nodup) (h1 : w'.rights.Perm w.rights) (h2 : w'.st.g.eff = w.st.g.eff)
    (h3 : w'.st.g.nextId = w.st.g.nextId) (h4 : w'.ids.Perm w.ids) (h5 : w'.st.cur.id = w.st.cur.id) : w.Goes w' :=
  ⟨h5, (h1.map _).nodup_iff.mpr hn, ⟨[], by simpa using h1⟩, ⟨[], by simp [h2], nofun⟩, 0, h3, by simpa using h4⟩

theorem Multi.Goes.trans {u v w : Multi} (h : u.Goes v) (h' : v.Goes w) : u.Goes w := by
  obtain ⟨x, hx⟩ := h.rights
  obtain ⟨y, hy⟩ := h'.rights
  obtain ⟨n, hn, pn⟩ := h.eff
  obtain ⟨m, hm, pm⟩ := h'.eff
  obtain ⟨j, hj, ij⟩ := h.ids
  obtain ⟨k, hk, ik⟩ := h'.ids
  refine ⟨h'.me.trans h.me, h'.named, ⟨x ++ y, ?_⟩, ⟨n ++ m, by rw [hm, hn, List.append_assoc], ?_⟩, j + k, by omega, ?_⟩
  · rw [← List.append_assoc]
    exact hy.trans (hx.append_right y)
  · intro e he
    rcases List.mem_append.1 he with he | he
    · exact (pn e he).mono fun k hk => hy.mem_iff.mpr (List.mem_append_left _ hk)
    · exact pm e he
  · rw [← List.range'_append_1, ← List.append_assoc, ← hj]
    exact ik.trans (ij.append_right _)

/-- A universe and the others. -/
theorem perm_split {u : Uni} {o : List Uni} (hu : u ∈ o) (hn : (o.map (·.cfg.name)).Nodup) : o.Perm (u :: o.filter (·.cfg.name != u.cfg.name)) := by
  induction o with
  | nil => cases hu
  | cons v t ih =>
    rw [List.map_cons, List.nodup_cons] at hn
    rcases List.mem_cons.1 hu with rfl | hu
    · rw [List.filter_cons_of_neg (by simp), List.filter_eq_self.mpr]
      · intro x hx
        have : x.cfg.name ≠ u.cfg.name := fun e => hn.1 (e ▸ List.mem_map_of_mem hx)
        simpa using this
    · have : v.cfg.name ≠ u.cfg.name := fun e => hn.1 (e ▸ List.mem_map_of_mem hu)
      rw [List.filter_cons_of_pos (by simpa using this)]
      exact ((ih hu hn.2).cons v).trans (.swap _ _ _)

theorem names_of_rights (l : List Uni) : (l.map (·.cfg.rights)).map (·.1) = l.map (·.cfg.name) := by
  rw [List.map_map]; rfl

theorem went_landed (w : Multi) (name : List Int) (u : Uni) (hu : w.find name = some u) : w.Went (w.landed u) := by
  intro hn
  have hm : u ∈ w.others := List.mem_of_find?_eq_some hu
  have ho : (w.others.map (·.cfg.name)).Nodup := by
    rw [Multi.rights, List.map_cons, List.nodup_cons, names_of_rights] at hn
    exact hn.2
  have hp := perm_split hm ho
  refine .same hn ?_ rfl rfl ?_ rfl
  · show (u.cfg.rights :: w.st.g.cfg.rights :: (w.others.filter (·.cfg.name != u.cfg.name)).map (·.cfg.rights)).Perm (w.st.g.cfg.rights :: w.others.map (·.cfg.rights))
    exact (List.Perm.swap _ _ _).trans ((hp.map (·.cfg.rights)).symm.cons _)
  · show (w.st.cur.id :: (u.runners.map (·.id) ++ (w.st.rest.map (·.id) ++ (w.others.filter (·.cfg.name != u.cfg.name)).flatMap fun u => u.runners.map (·.id)))).Perm
      (w.st.cur.id :: (w.st.rest.map (·.id) ++ w.others.flatMap fun u => u.runners.map (·.id)))
    refine List.Perm.cons _ ?_
    have h2 := hp.flatMap_right fun u => u.runners.map (·.id)
    rw [List.flatMap_cons] at h2
    refine List.Perm.trans ?_ (h2.symm.append_left _)
    rw [← List.append_assoc, ← List.append_assoc]
    exact List.perm_append_comm.append_right _

theorem went_grown (w : Multi) (cfg : Cfg) (h : w.taken cfg.name = false) : w.Went (w.grown cfg) := by
  intro hn
  have hr : (w.grown cfg).rights = w.rights ++ [cfg.rights] := by
    show _ :: List.map _ (_ ++ [_]) = _
    rw [List.map_append]; rfl
  refine ⟨rfl, ?_, ⟨[cfg.rights], by rw [hr]⟩, ⟨[], by simp [Multi.grown], nofun⟩, 0, rfl, ?_⟩
  · rw [hr, List.map_append, List.nodup_append]
    refine ⟨hn, by simp, ?_⟩
    intro a ha b hb
    rw [List.map_singleton, List.mem_singleton] at hb
    subst hb
    rintro rfl
    rw [Multi.taken, Bool.or_eq_false_iff] at h
    rw [Multi.rights, List.map_cons, names_of_rights] at ha
    rcases List.mem_cons.1 ha with ha | ha
    · have := h.1
      rw [Multi.name, show w.st.g.cfg.name = cfg.name from ha.symm] at this
      simp at this
    · obtain ⟨u, hu, he⟩ := List.mem_map.1 ha
      have h2 := h.2
      rw [Multi.find, Option.isSome_eq_false_iff, Option.isNone_iff_eq_none, List.find?_eq_none] at h2
      exact h2 u hu (by simpa [Cfg.rights] using he)
  · simp [Multi.ids, Multi.grown]

theorem change_rights (w : Multi) (name : List Int) (f : Field → Field) : (w.change name fun u => { u with field := f u.field }).rights = w.rights := by
  rw [Multi.rights, Multi.rights, Multi.change, List.map_map]
  congr 1
  refine List.map_congr_left fun u _ => ?_
  show (if _ then _ else _ : Uni).cfg.rights = _
  split <;> rfl

theorem change_ids (w : Multi) (name : List Int) (f : Field → Field) : (w.change name fun u => { u with field := f u.field }).ids = w.ids := by
  rw [Multi.ids, Multi.ids, Multi.change]
  congr 2
  rw [List.flatMap_map]
  congr 1
  funext u
  split <;> rfl

theorem mengine_went : MEngine Minds Multi.Went where
  refl _ hn := .same hn .rfl rfl rfl .rfl rfl
  trans _ _ _ h h' hn := (h hn).trans (h' (h hn).named)
  engine := engine_minds
  touch := others_minds
  dirs := dirs_minds
  local' s s' o := by
    rintro ⟨⟨⟨h1, h2, h3, h4⟩, new, h5, h6⟩, h7, h8, k, h9, h10⟩ hn
    have hr : Multi.rights ⟨s', o⟩ = Multi.rights ⟨s, o⟩ := by
      unfold Multi.rights Cfg.rights
      dsimp only
      rw [h1, h2, h3, h4, h7]
    refine ⟨h8, by rw [hr]; exact hn, ⟨[], by rw [hr]; simp⟩, ⟨new, h5, fun e he => ⟨fun hc => ⟨s'.g.cfg.rights, List.mem_cons_self, ?_⟩, fun hc hd => ⟨s'.g.cfg.rights, List.mem_cons_self, ?_⟩⟩⟩, k, h9, ?_⟩
    · exact h1.trans ((h6 e he).1 hc)
    · exact h2.trans ((h6 e he).2 hc hd)
    · unfold Multi.ids
      dsimp only
      rw [h8, h10, List.cons_append, List.append_assoc, List.append_assoc]
      exact (List.perm_append_comm.append_left _).cons _
  field _ _ hn := .same hn .rfl rfl rfl .rfl rfl
  home w name f _ hn := .same hn (by rw [change_rights]) rfl rfl (by rw [change_ids]) rfl
  travels _ _ _ _ _ _ := .inl ⟨went_grown, fun w name u _ hu => went_landed w name u hu, fun w name f hn => .same hn (by rw [change_rights]) rfl rfl (by rw [change_ids]) rfl⟩

/-! ### One turn -/

/-- The IPs that a turn takes away. -/
structure World.Turned (w w' : World) (gone : List Nat) : Prop where
  named : w'.Named
  rights : ∃ extra, w'.rights.Perm (w.rights ++ extra)
  eff : ∃ new, w'.proc.eff = w.proc.eff ++ new ∧ ∀ e ∈ new, AllowedBy w'.rights e
  ids : ∃ k, w'.proc.nextId = w.proc.nextId + k ∧ (w'.ids ++ gone).Perm (w.ids ++ List.range' w.proc.nextId k)

theorem World.Turned.refl {w : World} (hn : w.Named) : w.Turned w [] :=
  ⟨hn, ⟨[], by simp⟩, ⟨[], by simp, nofun⟩, 0, rfl, by simp⟩

theorem World.Turned.trans {u v w : World} {a b : List Nat} (h : u.Turned v a) (h' : v.Turned w b) : u.Turned w (b ++ a) := by
  obtain ⟨x, hx⟩ := h.rights
  obtain ⟨y, hy⟩ := h'.rights
  obtain ⟨n, hn, pn⟩ := h.eff
  obtain ⟨m, hm, pm⟩ := h'.eff
  obtain ⟨j, hj, ij⟩ := h.ids
  obtain ⟨k, hk, ik⟩ := h'.ids
  refine ⟨h'.named, ⟨x ++ y, ?_⟩, ⟨n ++ m, by rw [hm, hn, List.append_assoc], ?_⟩, j + k, by omega, ?_⟩
  · rw [← List.append_assoc]
    exact hy.trans (hx.append_right y)
  · intro e he
    rcases List.mem_append.1 he with he | he
    · exact (pn e he).mono fun k hk => hy.mem_iff.mpr (List.mem_append_left _ hk)
    · exact pm e he
  · rw [← List.range'_append_1, ← List.append_assoc, ← List.append_assoc, ← hj]
    refine (ik.append_right a).trans ?_
    rw [List.append_assoc]
    refine (List.perm_append_comm.append_left _).trans ?_
    rw [← List.append_assoc]
    exact ij.append_right _

/-- A turn: nobody but the IP whose turn it was can be gone. -/
theorem World.turn_turned {w w' : World} {name : List Int} (h : w.turn name = .ok w') (hn : w.Named) :
    w.Turned w' [] ∨ ∃ u ∈ w.unis, u.cfg.name = name ∧ ∃ i l, u.runners.map (·.id) = i :: l ∧ w.Turned w' [i] := by
  rcases World.turn_cases h with rfl | ⟨u, r, rest, m, hu, hr, hm, rfl⟩
  · exact .inl (.refl hn)
  · have hmem : u ∈ w.unis := List.mem_of_find?_eq_some hu
    have hname : u.cfg.name = name := by simpa using List.find?_some hu
    subst hname
    have hp := perm_split hmem hn
    generalize hm0 : (⟨⟨r, rest, w.proc.enter u⟩, w.unis.filter (·.cfg.name != u.cfg.name)⟩ : Multi) = m0 at hm
    have hr0 : m0.rights.Perm w.rights := by
      subst hm0
      exact (hp.map (·.cfg.rights)).symm
    have hi0 : m0.ids.Perm w.ids := by
      subst hm0
      have := (hp.flatMap_right fun u => u.runners.map (·.id)).symm
      rw [List.flatMap_cons, hr] at this
      exact this
    have hn0 : (m0.rights.map (·.1)).Nodup := (hr0.map _).nodup_iff.mpr (by rw [World.rights, names_of_rights]; exact hn)
    have he0 : m0.st.g.eff = w.proc.eff := by subst hm0; rfl
    have hk0 : m0.st.g.nextId = w.proc.nextId := by subst hm0; rfl
    have hg : m0.Goes m := by
      rcases hm with ⟨-, rfl⟩ | ⟨a, ha⟩
      · exact .same hn0 .rfl rfl rfl .rfl rfl
      · exact mkeeps_tick mengine_went _ _ _ ha hn0
    have hid : m.st.cur.id = r.id := by
      rw [hg.me]; subst hm0; rfl
    have key : ∀ gone, (World.ids ⟨m.st.uni (if m.st.cur.ip.stopped then m.st.rest else m.st.rest ++ [m.st.cur]) :: m.others, m.st.g⟩ ++ gone).Perm m.ids →
        w.Turned ⟨m.st.uni (if m.st.cur.ip.stopped then m.st.rest else m.st.rest ++ [m.st.cur]) :: m.others, m.st.g⟩ gone := by
      intro gone hgone
      obtain ⟨x, hx⟩ := hg.rights
      obtain ⟨n, hn', pn⟩ := hg.eff
      obtain ⟨j, hj, ij⟩ := hg.ids
      refine ⟨?_, ⟨x, hx.trans (hr0.append_right _)⟩, ⟨n, by rw [← he0]; exact hn', pn⟩, j, by rw [← hk0]; exact hj, ?_⟩
      · have := hg.named
        rw [Multi.rights, List.map_cons, names_of_rights] at this
        exact this
      · rw [← hk0]
        exact hgone.trans (ij.trans (hi0.append_right _))
    cases hs : m.st.cur.ip.stopped with
    | false =>
      refine .inl (hs ▸ key [] ?_)
      rw [hs]
      show (((m.st.rest ++ [m.st.cur]).map Runner.id ++ m.others.flatMap fun u : Uni => u.runners.map Runner.id) ++ []).Perm m.ids
      rw [List.append_nil, List.map_append, List.append_assoc]
      exact List.perm_middle
    | true =>
      refine .inr ⟨u, hmem, rfl, r.id, rest.map (·.id), by rw [hr]; rfl, hs ▸ key _ ?_⟩
      rw [hs, ← hid]
      show ((m.st.rest.map Runner.id ++ m.others.flatMap fun u : Uni => u.runners.map Runner.id) ++ [m.st.cur.id]).Perm m.ids
      exact List.perm_append_comm

theorem World.turns_turned {l : List (List Int)} {w w' : World} (h : w.turns l = .ok w') (hn : w.Named) : ∃ gone, w.Turned w' gone := by
  refine World.turns_lift (Q := fun w w' => w.Named → ∃ gone, w.Turned w' gone) (fun w hn => ⟨[], .refl hn⟩) ?_ ?_ h hn
  · intro u v w h h' hn
    obtain ⟨a, ha⟩ := h hn
    obtain ⟨b, hb⟩ := h' ha.named
    exact ⟨_, ha.trans hb⟩
  · intro w w' name h hn
    rcases World.turn_turned h hn with h | ⟨_, _, _, i, _, _, h⟩
    · exact ⟨_, h⟩
    · exact ⟨_, h⟩

/-! ### C119 -/

/-- **C119** No program changes the permissions of any universe, and no universe disappears: whatever the order of turns, there are the same universes with the same
permissions afterwards, and possibly new ones (`made`), under names of their own. -/
theorem C119_permissions_kept {l : List (List Int)} {w w' : World} (h : w.turns l = .ok w') (hn : w.Named) :
    w'.Named ∧ ∃ made, w'.rights.Perm (w.rights ++ made) :=
  (World.turns_turned h hn).elim fun _ H => ⟨H.named, H.rights⟩

/-- **C119** Nothing happens that no universe allows: a command is run only if one of the universes there are in the end allows commands, and a file is read or written
only if one of them allows the use of files (but for the directories of DIRF, `C32_false_for_DIRF`). -/
theorem C119_allowed_somewhere {l : List (List Int)} {w w' : World} (h : w.turns l = .ok w') (hn : w.Named) :
    ∃ new, w'.proc.eff = w.proc.eff ++ new ∧ ∀ e ∈ new, (e.isCommand = true → ∃ u ∈ w'.unis, u.cfg.execute = true) ∧
      (e.isFile = true → e.isDir = false → ∃ u ∈ w'.unis, u.cfg.filesystem = true) := by
  obtain ⟨_, H⟩ := World.turns_turned h hn
  obtain ⟨new, h1, h2⟩ := H.eff
  refine ⟨new, h1, fun e he => ⟨fun hc => ?_, fun hc hd => ?_⟩⟩
  · obtain ⟨k, hk, hx⟩ := (h2 e he).1 hc
    obtain ⟨u, hu, rfl⟩ := List.mem_map.1 hk
    exact ⟨u, hu, hx⟩
  · obtain ⟨k, hk, hx⟩ := (h2 e he).2 hc hd
    obtain ⟨u, hu, rfl⟩ := List.mem_map.1 hk
    exact ⟨u, hu, hx⟩

/-- The universes are those there were: none was made. -/
theorem rights_same {w w' : World} {made : List (List Int × Bool × Bool × Bool × Bool)} (h : w'.rights.Perm (w.rights ++ made)) (hl : w'.unis.length = w.unis.length) :
    ∀ u' ∈ w'.unis, ∃ u ∈ w.unis, u'.cfg.rights = u.cfg.rights := by
  have hlen := h.length_eq
  simp only [World.rights, List.length_append, List.length_map] at hlen
  cases made with
  | cons a t => simp only [List.length_cons] at hlen; omega
  | nil =>
    intro u' hu'
    rw [List.append_nil] at h
    obtain ⟨u, hu, he⟩ := List.mem_map.1 (h.mem_iff.mp (List.mem_map_of_mem hu'))
    exact ⟨u, hu, he.symm⟩

/-- **C119** for commands, partial: where every universe forbids commands none is run, whatever the universes are, in whatever order they take their turns, and
wherever the IPs go; but only as long as no universe is made (`C119_false_with_B`). -/
theorem C119_no_execute_partial {l : List (List Int)} {w w' : World} (h : w.turns l = .ok w') (hn : w.Named) (hx : ∀ u ∈ w.unis, u.cfg.execute = false)
    (hl : w'.unis.length = w.unis.length) : ∃ new, w'.proc.eff = w.proc.eff ++ new ∧ ∀ e ∈ new, e.isCommand = false := by
  obtain ⟨-, made, hm⟩ := C119_permissions_kept h hn
  obtain ⟨new, h1, h2⟩ := C119_allowed_somewhere h hn
  refine ⟨new, h1, fun e he => ?_⟩
  cases hc : e.isCommand with
  | false => rfl
  | true =>
    obtain ⟨u', hu', ht⟩ := (h2 e he).1 hc
    obtain ⟨u, hu, hr⟩ := rights_same hm hl u' hu'
    have := hx u hu
    rw [← show u'.cfg.execute = u.cfg.execute from congrArg (fun p => p.2.1) hr, ht] at this
    cases this

/-- **C119** for files, partial likewise, and but for the directories of DIRF. -/
theorem C119_no_filesystem_partial {l : List (List Int)} {w w' : World} (h : w.turns l = .ok w') (hn : w.Named) (hx : ∀ u ∈ w.unis, u.cfg.filesystem = false)
    (hl : w'.unis.length = w.unis.length) : ∃ new, w'.proc.eff = w.proc.eff ++ new ∧ ∀ e ∈ new, e.isFile = true → e.isDir = true := by
  obtain ⟨-, made, hm⟩ := C119_permissions_kept h hn
  obtain ⟨new, h1, h2⟩ := C119_allowed_somewhere h hn
  refine ⟨new, h1, fun e he hf => ?_⟩
  cases hc : e.isDir with
  | true => rfl
  | false =>
    obtain ⟨u', hu', ht⟩ := (h2 e he).2 hf hc
    obtain ⟨u, hu, hr⟩ := rights_same hm hl u' hu'
    have := hx u hu
    rw [← show u'.cfg.filesystem = u.cfg.filesystem from congrArg (fun p => p.2.2.1) hr, ht] at this
    cases this

/-! ### Where MVRS is unknown -/

/-- A runner that cannot execute an instruction of MVRS, nor can its twins. -/
def Runner.noMVRS (r : Runner) : Prop := (∀ c m, m ∈ r.sems c → ∀ x, m.op ≠ .fing .MVRS x) ∧ 0x4D565253 ∉ r.loaded

theorem ofId_MVRS {id : Nat} {f : Fp} (h : Fp.ofId id = some f) (hid : id ≠ 0x4D565253) : f ≠ .MVRS := by
  intro e
  subst e
  unfold Fp.ofId at h
  split at h <;> first | (cases h; done) | exact hid rfl

theorem bindings_noMVRS {f : Fp} (hf : f ≠ .MVRS) : ∀ p ∈ f.bindings, ∀ x, p.2.op ≠ .fing .MVRS x := by
  intro p hp x hc
  cases f
  case MVRS => exact hf rfl
  case DBUG => cases hp
  all_goals
    obtain ⟨c, _, rfl⟩ := List.mem_map.1 hp
    cases hc

theorem table_noMVRS (st : Strat) : ∀ p ∈ st.table, ∀ x, p.2.op ≠ .fing .MVRS x := fun p hp x e => by
  have := table_plain st p hp
  rw [e] at this
  cases this

theorem pushSems_noMVRS {l : List (Int × Sem)} (hl : ∀ p ∈ l, ∀ x, p.2.op ≠ .fing .MVRS x) {r : Runner} (hr : r.noMVRS) : (r.pushSems l).noMVRS := by
  refine ⟨fun c m hm => ?_, ?_⟩
  · rw [pushSems_sems] at hm
    rcases List.mem_append.1 hm with hm | hm
    · obtain ⟨p, hp, rfl⟩ := mem_meanings hm
      exact hl p hp
    · exact hr.1 c m hm
  · rw [pushSems_eq]; exact hr.2

theorem loadFp_noMVRS {r r' : Runner} {id : Nat} (h : r.loadFp id = some r') (hid : id ≠ 0x4D565253) (hr : r.noMVRS) : r'.noMVRS := by
  unfold Runner.loadFp at h
  split at h
  · cases h
  · rename_i f hf
    rw [← Option.some.inj h, activate_eq]
    refine pushSems_noMVRS (bindings_noMVRS (ofId_MVRS hf hid)) ⟨hr.1, ?_⟩
    intro hm
    rcases List.mem_append.1 hm with hm | hm
    · exact hr.2 hm
    · exact hid (List.mem_singleton.1 hm).symm

theorem loadFps_noMVRS (l : List Nat) {r : Runner} (hl : 0x4D565253 ∉ l) (hr : r.noMVRS) : (r.loadFps l).noMVRS := by
  unfold Runner.loadFps
  induction l generalizing r with
  | nil => exact hr
  | cons id t ih =>
    rw [List.foldl_cons]
    refine ih (fun h => hl (List.mem_cons_of_mem _ h)) ?_
    cases h : r.loadFp id with
    | none => exact hr
    | some r' => exact loadFp_noMVRS h (fun e => hl (e ▸ List.mem_cons_self)) hr

theorem init_noMVRS (fps : List Nat) (st : Strat) {r : Runner} (hl : 0x4D565253 ∉ fps) (hr : r.noMVRS) : (st.init fps r).noMVRS := by
  have ht := table_noMVRS st
  cases st <;> unfold Strat.init <;> dsimp only
  case une98 => exact pushSems_noMVRS ht (loadFps_noMVRS _ hl hr)
  case starfish =>
    have h := pushSems_noMVRS (fun p hp => ht p (List.mem_append_right _ hp))
      (pushSems_noMVRS (fun p hp => ht p (List.mem_append_left _ hp)) hr)
    exact ⟨h.1, h.2⟩
  case une93 => exact ⟨(pushSems_noMVRS ht hr).1, (pushSems_noMVRS ht hr).2⟩
  case fish => exact ⟨(pushSems_noMVRS ht hr).1, (pushSems_noMVRS ht hr).2⟩
  all_goals exact pushSems_noMVRS ht hr

theorem inits_noMVRS (fps : List Nat) (l : List Strat) {r : Runner} (hl : 0x4D565253 ∉ fps) (hr : r.noMVRS) :
    (l.foldl (Strat.init fps) r).noMVRS := by
  induction l generalizing r with
  | nil => exact hr
  | cons st t ih => exact ih (init_noMVRS fps st hl hr)

theorem clone_noMVRS {p r : Runner} {g : Glob} {id : Nat} (h : p.clone g id = .ok r) (hp : p.noMVRS) : r.noMVRS := by
  unfold Runner.clone at h
  dsimp only at h
  split at h
  · cases h
  · cases h
    have := inits_noMVRS (r := { id := id, strats := p.strats.map Strat.cloned, ss := p.ss.copy, ip := p.ip, parent := some p.id }) p.loaded
      (p.strats.map Strat.cloned) hp.2 ⟨nofun, nofun⟩
    exact ⟨this.1, this.2⟩

theorem newRunner_noMVRS {cfg : Cfg} (h : 0x4D565253 ∉ cfg.fingerprints) (id : Nat) (pos delta : Vec) : (newRunner cfg id pos delta).noMVRS := by
  have h := inits_noMVRS (r := { id := id, strats := strategiesFor cfg }) cfg.fingerprints (strategiesFor cfg) h ⟨nofun, nofun⟩
  unfold newRunner
  dsimp only
  refine ⟨?_, ?_⟩
  · rw [notifyDelta_sems]; exact h.1
  · rw [(notifyDelta_core _).loaded]; exact h.2

/-- No fingerprint can be loaded in this universe and none of its runners knows MVRS. -/
def Shut (s : St) : Prop := s.g.cfg.fingerprint = false ∧ s.cur.noMVRS ∧ ∀ r ∈ s.rest, r.noMVRS

def StaysShut (s s' : St) : Prop := Shut s → Shut s'

theorem StaysShut.same {s s' : St} (hg : s'.g.cfg.fingerprint = s.g.cfg.fingerprint) (hr : s'.rest = s.rest) (hs : s'.cur.sems = s.cur.sems)
    (hl : s'.cur.loaded = s.cur.loaded) : StaysShut s s' := fun ⟨b1, b2, b3⟩ =>
  ⟨hg.trans b1, ⟨by rw [hs]; exact b2.1, by rw [hl]; exact b2.2⟩, by rw [hr]; exact b3⟩

theorem engine_shut : Engine StaysShut where
  refl _ := id
  trans _ _ _ h h' := fun b => h' (h b)
  stack _ _ _ _ _ _ := .same rfl rfl rfl rfl
  ssPush _ := .same rfl rfl rfl rfl
  ssPop _ _ _ := .same rfl rfl rfl rfl
  ssInsert _ _ _ _ := .same rfl rfl rfl rfl
  ssRemove _ _ _ _ := .same rfl rfl rfl rfl
  ssInc _ := .same rfl rfl rfl rfl
  ssDec _ := .same rfl rfl rfl rfl
  ip _ _ _ := .same rfl rfl rfl rfl
  stop _ := .same rfl rfl rfl rfl
  core _ _ h := .same rfl rfl h.sems h.loaded
  sems s t l hl ht := fun ⟨b1, b2, b3⟩ => ⟨b1, ⟨fun c m hm => by
    rcases ht.known c m hm with ⟨c', h⟩ | h
    · exact b2.1 c' m h
    · subst h; exact nofun, fun h => b2.2 (hl _ h)⟩, b3⟩
  load s id r h _ := fun b => by rw [b.1] at h; cases h
  glob _ _ _ _ _ := .same rfl rfl rfl rfl
  ref _ _ _ _ := .same rfl rfl rfl rfl
  out _ _ := .same rfl rfl rfl rfl
  system _ _ _ := .same rfl rfl rfl rfl
  openRead _ _ _ := .same rfl rfl rfl rfl
  openWrite _ _ _ := .same rfl rfl rfl rfl
  writeFile _ _ _ _ := .same rfl rfl rfl rfl
  put _ _ _ := .same rfl rfl rfl rfl
  parse _ _ _ _ _ := .same rfl rfl rfl rfl
  dims _ _ _ := .same rfl rfl rfl rfl
  clone s r _ h := fun ⟨b1, b2, b3⟩ => ⟨b1, b2, fun x hx => by
    rcases List.mem_append.1 hx with hx | hx
    · exact b3 x hx
    · cases List.mem_singleton.1 hx; exact clone_noMVRS h b2⟩
  kill s c := fun ⟨b1, b2, b3⟩ => ⟨b1, b2, fun x hx => by
    obtain ⟨r, hr, rfl⟩ := List.mem_map.1 hx
    exact b3 r hr⟩
  mode s m := fun ⟨b1, b2, b3⟩ => ⟨b1, b2, fun x hx => by
    obtain ⟨r, hr, rfl⟩ := List.mem_map.1 hx
    exact b3 r hr⟩

theorem others_shut : Others StaysShut := by
  intro s a b r st st' hr _ _ ⟨b1, b2, b3⟩
  refine ⟨b1, b2, fun x hx => ?_⟩
  rw [hr] at b3
  rcases List.mem_append.1 hx with hx | hx
  · exact b3 x (List.mem_append_left _ hx)
  · rcases List.mem_cons.1 hx with rfl | hx
    · exact b3 r (List.mem_append_right _ List.mem_cons_self)
    · exact b3 x (List.mem_append_right _ (List.mem_cons_of_mem _ hx))

theorem dirs_shut : Dirs StaysShut := ⟨fun _ _ => .same rfl rfl rfl rfl, fun _ _ => .same rfl rfl rfl rfl, fun _ _ => .same rfl rfl rfl rfl⟩

/-- No fingerprint can be loaded there and nobody there knows MVRS. -/
def Uni.Shut (u : Uni) : Prop := u.cfg.fingerprint = false ∧ ∀ r ∈ u.runners, r.noMVRS

def Multi.StaysShut (w w' : Multi) : Prop :=
  (Funge.Shut w.st ∧ ∀ u ∈ w.others, u.Shut) → (Funge.Shut w'.st ∧ ∀ u ∈ w'.others, u.Shut) ∧ w'.others.length = w.others.length

theorem mengine_shut : MEngine Funge.StaysShut Multi.StaysShut where
  refl _ h := ⟨h, rfl⟩
  trans _ _ _ h h' b := ⟨(h' (h b).1).1, (h' (h b).1).2.trans (h b).2⟩
  engine := engine_shut
  touch := others_shut
  dirs := dirs_shut
  local' _ _ _ h b := ⟨⟨h b.1, b.2⟩, rfl⟩
  field _ _ b := ⟨⟨⟨b.1.1, b.1.2⟩, b.2⟩, rfl⟩
  home w name f _ b := ⟨⟨b.1, fun u hu => by
    obtain ⟨v, hv, rfl⟩ := List.mem_map.1 hu
    have := b.2 v hv
    split
    · exact ⟨this.1, this.2⟩
    · exact this⟩, by simp [Multi.change]⟩
  travels w i sem c hs ho := .inr fun w' b => absurd ho (b.1.2.1.1 i sem (List.mem_of_mem_head? hs) c)

theorem World.turns_shut {l : List (List Int)} {w w' : World} (h : w.turns l = .ok w') (hb : ∀ u ∈ w.unis, u.Shut) (hn : w.Named) :
    w'.unis.length = w.unis.length := by
  have key := World.turns_lift (Q := fun w w' => w.Named → (∀ u ∈ w.unis, u.Shut) → w'.Named ∧ (∀ u ∈ w'.unis, u.Shut) ∧ w'.unis.length = w.unis.length)
    (fun w hn hb => ⟨hn, hb, rfl⟩) (fun u v w h h' hn hb => ?_) ?_ h
  · exact (key hn hb).2.2
  · obtain ⟨a, b, c⟩ := h hn hb
    obtain ⟨a', b', c'⟩ := h' a b
    exact ⟨a', b', c'.trans c⟩
  · intro w w' name h hn hb
    have hnamed : w'.Named := by
      rcases World.turn_turned h hn with h | ⟨_, _, _, _, _, _, h⟩ <;> exact h.named
    refine ⟨hnamed, ?_⟩
    rcases World.turn_cases h with rfl | ⟨u, r, rest, m, hu, hr, hm, rfl⟩
    · exact ⟨hb, rfl⟩
    · have hmem : u ∈ w.unis := List.mem_of_find?_eq_some hu
      have hname : u.cfg.name = name := by simpa using List.find?_some hu
      subst hname
      have hub := hb u hmem
      rw [Uni.Shut, hr] at hub
      have hlen : w.unis.length = (w.unis.filter (·.cfg.name != u.cfg.name)).length + 1 := by
        have := (perm_split hmem hn).length_eq
        rw [List.length_cons] at this
        exact this
      have h0 : Funge.Shut ⟨r, rest, w.proc.enter u⟩ ∧ ∀ v ∈ w.unis.filter (·.cfg.name != u.cfg.name), v.Shut :=
        ⟨⟨hub.1, hub.2 r List.mem_cons_self, fun x hx => hub.2 x (List.mem_cons_of_mem _ hx)⟩, fun v hv => hb v (List.mem_filter.mp hv).1⟩
      have h1 : (Funge.Shut m.st ∧ ∀ v ∈ m.others, v.Shut) ∧ m.others.length = (w.unis.filter (·.cfg.name != u.cfg.name)).length := by
        rcases hm with ⟨-, rfl⟩ | ⟨a, ha⟩
        · exact ⟨h0, rfl⟩
        · exact mkeeps_tick mengine_shut _ _ _ ha h0
      refine ⟨fun v hv => ?_, by rw [hlen, ← h1.2]; rfl⟩
      rcases List.mem_cons.1 hv with rfl | hv
      · refine ⟨h1.1.1.1, fun x hx => ?_⟩
        change x ∈ (if m.st.cur.ip.stopped then m.st.rest else m.st.rest ++ [m.st.cur]) at hx
        split at hx
        · exact h1.1.1.2.2 x hx
        · rcases List.mem_append.1 hx with hx | hx
          · exact h1.1.1.2.2 x hx
          · cases List.mem_singleton.1 hx; exact h1.1.1.2.1
      · exact h1.1.2 v hv

/-- **C119** in full where fingerprints are switched off as well: started with `-fno-execute -fno-fingerprint` and without MVRS, no number of universes runs a command,
and no universe is made. -/
theorem C119_no_execute_shut {l : List (List Int)} {w w' : World} (h : w.turns l = .ok w') (hn : w.Named)
    (hx : ∀ u ∈ w.unis, u.cfg.execute = false) (hf : ∀ u ∈ w.unis, u.cfg.fingerprint = false) (hr : ∀ u ∈ w.unis, ∀ r ∈ u.runners, r.noMVRS) :
    w'.unis.length = w.unis.length ∧ ∃ new, w'.proc.eff = w.proc.eff ++ new ∧ ∀ e ∈ new, e.isCommand = false := by
  have hl := World.turns_shut h (fun u hu => ⟨hf u hu, hr u hu⟩) hn
  exact ⟨hl, C119_no_execute_partial h hn hx hl⟩

/-- **C119** is violated: there is one universe, and it forbids commands; but its program makes another one with `B`, goes there, and runs a command. -/
theorem C119_false_with_B : escapeWorld.Named ∧ (∀ u ∈ escapeWorld.unis, u.cfg.execute = false) ∧
    ∃ l w', escapeWorld.turns l = .ok w' ∧ ∃ e ∈ w'.proc.eff, e.isCommand = true := by
  refine ⟨by unfold World.Named; decide +kernel, C84_false_escape.1, List.replicate 31 [65] ++ List.replicate 6 [66], ?_⟩
  have h := C84_false_escape.2
  unfold World.effects at h
  split at h
  · rename_i w' hw
    have he := Option.some.inj h
    exact ⟨w', hw, .system [108, 115], by rw [he]; exact List.mem_singleton_self _, rfl⟩
  · cases h

/-! ### C120 -/

/-- **C120** An IP is in one place: if every IP of the multiverse has an identity of its own to begin with, then no IP is in two universes, nor twice in one, after any
number of turns of the universes in any order. (Turns that overlap are another matter: `C85_false_race`.) -/
theorem C120_one_place {l : List (List Int)} {w w' : World} (h : w.turns l = .ok w') (hn : w.Named) (hd : w.ids.Nodup) (hlt : ∀ i ∈ w.ids, i < w.proc.nextId) :
    w'.ids.Nodup ∧ ∀ i ∈ w'.ids, i < w'.proc.nextId := by
  obtain ⟨gone, H⟩ := World.turns_turned h hn
  obtain ⟨k, hk, hp⟩ := H.ids
  have hb : ∀ i ∈ w'.ids, i ∈ w.ids ++ List.range' w.proc.nextId k := fun i hi => hp.mem_iff.mp (List.mem_append_left _ hi)
  constructor
  · have : (w'.ids ++ gone).Nodup := by
      refine hp.nodup_iff.mpr ?_
      rw [List.nodup_append]
      refine ⟨hd, List.nodup_range', ?_⟩
      rintro a ha b hb rfl
      rw [List.mem_range'_1] at hb
      have := hlt a ha
      omega
    exact (List.nodup_append.mp this).1
  · intro i hi
    rcases List.mem_append.1 (hb i hi) with hi | hi
    · have := hlt i hi; omega
    · rw [List.mem_range'_1] at hi; omega

/-- **C120** Nobody gets lost and nobody appears from nowhere: after a turn of the universe `name`, everybody who was in any universe is in some universe, with the
new IPs, which have the next identities; only the IP whose turn it was may be gone. -/
theorem C120_turn {w w' : World} {name : List Int} (h : w.turn name = .ok w') (hn : w.Named) :
    ∃ k gone, w'.proc.nextId = w.proc.nextId + k ∧ (w'.ids ++ gone).Perm (w.ids ++ List.range' w.proc.nextId k) ∧
      (gone = [] ∨ ∃ u ∈ w.unis, u.cfg.name = name ∧ ∃ i l, u.runners.map (·.id) = i :: l ∧ gone = [i]) := by
  rcases World.turn_turned h hn with H | ⟨u, hu, hun, i, l, hi, H⟩
  · obtain ⟨k, h1, h2⟩ := H.ids
    exact ⟨k, [], h1, h2, .inl rfl⟩
  · obtain ⟨k, h1, h2⟩ := H.ids
    exact ⟨k, [i], h1, h2, .inr ⟨u, hu, hun, i, l, hi, rfl⟩⟩

/-! ### Examples -/

/-- Universe A, where commands are forbidden, with an IP that goes to universe B: `0"B"J@`. -/
def exHomeA : St := machineWith { name := [65], dims := 2, standard := 98, execute := false, filesystem := false, fingerprints := [0x4D565253] } [[48, 34, 66, 34, 74, 64]]

/-- Universe B, where they are forbidden likewise, with nobody in it: `     7.t0"sl"=@`. -/
def exHomeB : St := machineWith { name := [66], dims := 2, standard := 98, execute := false, filesystem := false } [[32, 32, 32, 32, 32, 55, 46, 116, 48, 34, 115, 108, 34, 61, 64]]

/-- Both of them. -/
def exWorlds : World := ⟨[exHomeA.uni [exHomeA.cur], exHomeB.uni []], { exHomeA.g with nextId := 1 }⟩

/-- What is printed, how many universes there are, and who is where. -/
def World.seen (w : World) (l : List (List Int)) : Option (List Eff × List (List Int × List Nat)) :=
  match w.turns l with
  | .ok w' => some (w'.proc.eff, w'.unis.map fun u => (u.cfg.name, u.runners.map (·.id)))
  | .error _ => none

/-- The hypotheses of C119 and C120 are met by these two universes; the IP goes from one to the other, prints, and splits in two. -/
theorem C119_example : exWorlds.Named ∧ (∀ u ∈ exWorlds.unis, u.cfg.execute = false) ∧ (∀ u ∈ exWorlds.unis, u.cfg.filesystem = false) ∧ exWorlds.ids.Nodup ∧
    (∀ i ∈ exWorlds.ids, i < exWorlds.proc.nextId) ∧
    exWorlds.seen (List.replicate 4 [65]) = some ([], [([65], [0]), ([66], [])]) ∧
    exWorlds.seen (List.replicate 5 [65] ++ List.replicate 3 [66]) = some ([.out [55, 32]], [([66], [1, 0]), ([65], [])]) := by
  refine ⟨by unfold World.Named; decide +kernel, by decide +kernel, by decide +kernel, by decide +kernel, by decide +kernel, ?_, ?_⟩
  · decide +kernel
  · decide +kernel

/-- Two universes without fingerprints, each with an IP: hypotheses of `C119_no_execute_shut`. -/
def exShut (name : List Int) : St := machineWith { name := name, dims := 2, standard := 98, execute := false, fingerprint := false } [[49, 46, 48, 61, 46, 64]]

def exShutWorld : World := ⟨[(exShut [65]).uni [(exShut [65]).cur], (exShut [66]).uni [{ (exShut [66]).cur with id := 1 }]], { (exShut [65]).g with nextId := 2 }⟩

example : exShutWorld.Named ∧ (∀ u ∈ exShutWorld.unis, u.cfg.execute = false) ∧ (∀ u ∈ exShutWorld.unis, u.cfg.fingerprint = false) ∧
    (∀ u ∈ exShutWorld.unis, ∀ r ∈ u.runners, r.noMVRS) := by
  refine ⟨by unfold World.Named; decide +kernel, by decide +kernel, by decide +kernel, fun u hu r hr => ?_⟩
  rcases List.mem_cons.1 hu with rfl | hu
  · cases List.mem_singleton.1 hr
    exact newRunner_noMVRS (fun h => by cases h) _ _ _
  · cases List.mem_singleton.1 hu
    cases List.mem_singleton.1 hr
    have := newRunner_noMVRS (cfg := { name := [66], dims := 2, standard := 98, execute := false, fingerprint := false }) (fun h => by cases h) 0 (Vec.ofList [0]) (Vec.ofList [1])
    exact ⟨this.1, this.2⟩

/-- There, `=` is tried twice, in turns, and fails. -/
example : exShutWorld.seen ((List.replicate 5 [[65], [66]]).flatten) = some ([.out [49, 32], .out [49, 32]], [([66], [1]), ([65], [0])]) := by decide +kernel

end Funge
