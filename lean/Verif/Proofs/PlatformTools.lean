import Verif.Proofs.PlatformCheck
import Verif.Proofs.ReadFd
import Verif.Model.Program
/-
  The environment plays no role in the tools.
-/
namespace Iff
open Spec

/-! ### The log plays no role in reading and writing -/

section
variable (d d' : Env)

/-- The same stream, with diagnostics that say the same. -/
def RSim (s s' : RS) : Prop := s.inp = s'.inp ∧ LogSim d d' s.log s'.log

/-- The same stream, with diagnostics that say the same. -/
def WSim (s s' : WS) : Prop := s.out = s'.out ∧ s.room = s'.room ∧ LogSim d d' s.log s'.log

/-- A computation whose result does not depend on the log. -/
abbrev Mute {α : Type} (m : M RS α) : Prop := Sim (RSim d d') m m

/-- A computation whose result does not depend on the log. -/
abbrev MuteW {α : Type} (m : M WS α) : Prop := Sim (WSim d d') m m

variable {d d'}

theorem mute_emit (m : Msg) : Mute d d' (RS.emit m) := fun _ _ h => .val ⟨h.1, h.2.snoc (.inl rfl)⟩

theorem mute_fread (n : Nat) : Mute d d' (fread n) := by
  rintro ⟨inp, log⟩ ⟨inp', log'⟩ ⟨h, hl⟩
  dsimp only at h
  subst h
  exact .val ⟨rfl, hl⟩

theorem mute_fgetc : Mute d d' fgetc := by
  rintro ⟨inp, log⟩ ⟨inp', log'⟩ ⟨h, hl⟩
  dsimp only at h
  subst h
  cases inp with
  | nil => exact .val ⟨rfl, hl⟩
  | cons b bs => exact .val ⟨rfl, hl⟩

theorem mute_fseek (e : Env) (n : Nat) : Mute d d' (fseekCur e n) := by
  rintro ⟨inp, log⟩ ⟨inp', log'⟩ ⟨h, hl⟩
  dsimp only at h
  subst h
  unfold fseekCur
  split
  · exact .val ⟨rfl, hl⟩
  · exact .val ⟨rfl, hl⟩

theorem mute_say {α : Type} (m : Msg) (a : α) : Mute d d' (do RS.emit m; pure a) :=
  sim_bind (mute_emit _) fun _ => sim_pure _

theorem mute_readULong (e : Env) (id : ID) (a : String) : Mute d d' (readULong e id a) := by
  refine sim_bind (mute_fread _) (fun l => ?_)
  split
  · exact sim_pure _
  · exact mute_say _ _

theorem mute_readUWord (e : Env) (id : ID) (a : String) : Mute d d' (readUWord e id a) := by
  refine sim_bind (mute_fread _) (fun l => ?_)
  split
  · exact sim_pure _
  · exact mute_say _ _

theorem mute_readUByte (id : ID) (a : String) : Mute d d' (readUByte id a) := by
  refine sim_bind mute_fgetc (fun l => ?_)
  split
  · exact mute_say _ _
  · exact sim_pure _

theorem mute_readVal (e : Env) (k : FieldKind) (id : ID) (a : String) :
    Mute d d' (readVal e k id a) := by
  cases k <;> simp only [readVal, readWord_eq, readLong_eq, readId_eq]
  · exact sim_bind (mute_readUByte _ _) (fun _ => sim_pure _)
  · exact sim_bind (mute_readUWord _ _ _) (fun _ => sim_pure _)
  · exact sim_bind (mute_readUWord _ _ _) (fun _ => sim_pure _)
  all_goals exact sim_bind (mute_readULong _ _ _) (fun _ => sim_pure _)

theorem mute_readField (e : Env) (k : FieldKind) (id : ID) (size : Int) (a : String)
    (v : Val) (bp : Int) : Mute d d' (readField e k id size a v bp) := by
  unfold readField
  refine sim_ite (sim_pure _) (sim_bind (mute_readVal _ _ _ _) (fun x => ?_))
  split
  all_goals exact sim_pure _

theorem mute_ext (e : Env) (id : ID) (size : Int) : ∀ (fields : List Field) (cur done : List Val)
    (bp : Int), Mute d d' (readExtFields e id size fields cur done bp)
  | [], _, _, _ => by simp only [readExtFields]; exact sim_pure _
  | _ :: _, [], _, _ => by simp only [readExtFields]; exact sim_pure _
  | f :: fs, v :: vs, done, bp => by
    simp only [readExtFields]
    refine sim_bind (mute_readField _ _ _ _ _ _ _) (fun x => ?_)
    obtain ⟨st, v, bp⟩ := x
    cases st with
    | more => exact mute_ext e id size fs vs _ _
    | failure => exact sim_pure _
    | last => exact sim_pure _

theorem mute_finish (e : Env) (size : Int) (ok : Bool) (c : Chunk) (bp : Int) :
    Mute d d' (finishChunk e size ok c bp) := by
  unfold finishChunk
  refine sim_ite (sim_bind ?_ fun b => sim_ite (sim_bind ?_ fun b => sim_ite (sim_pure _)
    (sim_pure _)) (sim_pure _)) (sim_pure _)
  · unfold skipUnknownBytes
    exact sim_ite (sim_bind (sim_ofOut _) fun _ => sim_bind (mute_fseek _ _) fun _ =>
      sim_ite (mute_say _ _) (sim_pure _)) (sim_pure _)
  · unfold readPaddingByte
    refine sim_ite (sim_bind mute_fgetc fun b => ?_) (sim_pure _)
    split
    · exact mute_say _ _
    · exact sim_ite (mute_say _ _) (sim_pure _)

theorem mute_raw (e : Env) (id : ID) (size bp : Int) : Mute d d' (readRawChunk e id size bp) := by
  unfold readRawChunk
  exact sim_bind (mute_fread _) fun _ => sim_ite (mute_say _ _)
    (sim_bind (sim_ofOut _) fun _ => sim_pure _)

theorem mute_chunk {e : Env} {r : Registry} : ∀ n : Nat,
    (∀ ft, Mute d d' (readChunk e r n ft)) ∧
    (∀ ty size subs bp, Mute d d' (readGroupSubChunks e r n ty size subs bp)) ∧
    (∀ ty size subs props bp, Mute d d' (readListSubChunks e r n ty size subs props bp)) := by
  intro n
  induction n with
  | zero =>
    refine ⟨?_, ?_, ?_⟩
    · intro ft; unfold readChunk; exact sim_loop
    · intro ty size subs bp; unfold readGroupSubChunks; exact sim_loop
    · intro ty size subs props bp; unfold readListSubChunks; exact sim_loop
  | succ n ih =>
    obtain ⟨ihc, ihg, ihl⟩ := ih
    refine ⟨?_, ?_, ?_⟩
    · intro ft
      rw [readChunk_succ]
      refine sim_bind (by rw [readId_eq]; exact mute_readULong _ _ _) (fun x => ?_)
      split
      · exact sim_pure _
      · rename_i id
        refine sim_bind (by rw [readLong_eq]; exact mute_readULong _ _ _) (fun x => ?_)
        split
        · exact sim_pure _
        · rename_i sz
          rcases Handler.cases' (findChunkType r ft id) with hh | hh | hh | ⟨f, k, hh⟩
          · rw [hh, readBody_raw]
            exact sim_ite (sim_bind (mute_raw _ _ _ _) fun _ => mute_finish _ _ _ _ _)
              (sim_pure _)
          · rw [readBody_grp _ _ _ _ _ hh]
            refine sim_bind (mute_readField _ _ _ _ _ _ _) (fun x => ?_)
            obtain ⟨st, v, bp⟩ := x
            cases st
            all_goals first
              | exact sim_bind (ihg _ _ _ _) fun _ => mute_finish _ _ _ _ _
              | exact mute_finish _ _ _ _ _
          · rw [hh, readBody_lst]
            refine sim_bind (mute_readField _ _ _ _ _ _ _) (fun x => ?_)
            obtain ⟨st, v, bp⟩ := x
            cases st
            all_goals first
              | exact sim_bind (ihl _ _ _ _ _) fun _ => sim_ite (mute_finish _ _ _ _ _)
                  (mute_say _ _)
              | exact mute_finish _ _ _ _ _
          · rw [hh, readBody_ext]
            exact sim_bind (mute_ext _ _ _ _ _ _ _) fun _ => mute_finish _ _ _ _ _
    · intro ty size subs bp
      unfold readGroupSubChunks
      refine sim_ite (sim_bind (ihc _) fun x => ?_) (sim_ite (mute_say _ _) (sim_pure _))
      split
      · exact sim_pure _
      · exact sim_bind (sim_ofOut _) fun _ => ihg _ _ _ _
    · intro ty size subs props bp
      unfold readListSubChunks
      refine sim_ite (sim_bind (ihc _) fun x => ?_) (sim_ite (mute_say _ _) (sim_pure _))
      split
      · exact sim_pure _
      · exact sim_bind (sim_ofOut _) fun _ => sim_ite (ihl _ _ _ _ _) (ihl _ _ _ _ _)

theorem mute_fd (e : Env) (reg : Option Registry) : Mute d d' (readFd e reg) := by
  intro s s' h
  have : Mute d d' (do
    match ← readChunk e (selectChunkRegistry reg) (s.inp.length + 4) 0 with
    | none => RS.emit .mainChunk; pure none
    | some c =>
      match ← fgetc with
      | some b => RS.emit (.trailing b.toNat); pure (some c)
      | none => pure (some c) : M RS (Option Chunk)) := by
    refine sim_bind ((mute_chunk _).1 _) fun x => ?_
    split
    · exact mute_say _ _
    · refine sim_bind mute_fgetc fun b => ?_
      split
      · exact mute_say _ _
      · exact sim_pure _
  unfold readFd
  rw [← h.1]
  exact this _ _ h

/-! ### Writing -/

theorem muteW_emit (m : Msg) : MuteW d d' (WS.emit m) :=
  fun _ _ h => .val ⟨h.1, h.2.1, h.2.2.snoc (.inl rfl)⟩

theorem muteW_fwrite (bs : List Byte) : MuteW d d' (fwrite bs) := by
  rintro ⟨out, room, log⟩ ⟨out', room', log'⟩ ⟨h1, h2, hl⟩
  dsimp only at h1 h2
  subst h1
  subst h2
  exact .val ⟨rfl, rfl, hl⟩

theorem muteW_say {α : Type} (m : Msg) (a : α) : MuteW d d' (do WS.emit m; pure a) :=
  sim_bind (muteW_emit _) fun _ => sim_pure _

theorem muteW_put {bs : List Byte} {n : Nat} {m : Msg} :
    MuteW d d' (do if (← fwrite bs) = n then pure true else WS.emit m; pure false) :=
  sim_bind (muteW_fwrite _) fun _ => sim_ite (sim_pure _) (muteW_say _ _)

theorem muteW_val (e : Env) (v : Val) (id : ID) (a : String) :
    MuteW d d' (writeVal e v id a) := by
  cases v <;> exact muteW_put

theorem muteW_field (e : Env) (v : Val) (id : ID) (size : Int) (a : String) (bp : Int) :
    MuteW d d' (writeField e v id size a bp) := by
  unfold writeField
  exact sim_ite (sim_pure _) (sim_bind (muteW_val _ _ _ _) fun _ => sim_ite (sim_pure _) (sim_pure _))

theorem muteW_raw (e : Env) (id : ID) (size : Int) (data : List Byte) (bp : Int) :
    MuteW d d' (writeRawChunk e id size data bp) := by
  unfold writeRawChunk
  exact sim_ite (sim_bind (muteW_fwrite _) fun _ => sim_ite (muteW_say _ _)
    (sim_bind (sim_ofOut _) fun _ => sim_pure _)) (sim_ub _)

theorem muteW_ext (e : Env) (id : ID) (size : Int) : ∀ (fields : List Field) (vals : List Val)
    (bp : Int), MuteW d d' (writeExtFields e id size fields vals bp)
  | [], _, _ => by simp only [writeExtFields]; exact sim_pure _
  | _ :: _, [], _ => by simp only [writeExtFields]; exact sim_pure _
  | f :: fs, v :: vs, bp => by
    simp only [writeExtFields]
    refine sim_bind (muteW_field _ _ _ _ _ _) (fun x => ?_)
    obtain ⟨st, bp⟩ := x
    cases st with
    | more => exact muteW_ext e id size fs vs _
    | failure => exact sim_pure _
    | last => exact sim_pure _

theorem muteW_with (e : Env) (c : Chunk) {fields : M WS (Bool × Int)} (h : MuteW d d' fields) :
    MuteW d d' (writeChunkWith e c fields) := by
  unfold writeChunkWith
  refine sim_bind muteW_put fun _ => sim_ite (sim_bind muteW_put fun _ => sim_ite
    (sim_bind h fun _ => sim_ite (sim_bind ?_ fun _ => sim_ite ?_ (sim_pure _)) (sim_pure _))
      (sim_pure _)) (sim_pure _)
  · unfold writeZeroFillerBytes
    exact sim_ite (sim_bind (sim_ofOut _) fun _ => muteW_put) (sim_pure _)
  · unfold writePaddingByte
    exact sim_ite muteW_put (sim_pure _)

theorem muteW_group (e : Env) (id : ID) (size : Int) (ty : ID) (a : String)
    {subs : Int → M WS (Bool × Int)} (h : ∀ bp, MuteW d d' (subs bp)) (bp : Int) :
    MuteW d d' (writeGroupWith e id size ty a subs bp) := by
  unfold writeGroupWith
  refine sim_bind (muteW_field _ _ _ _ _ _) ?_
  rintro ⟨st, bp'⟩
  cases st with
  | more => exact h bp'
  | last => exact sim_pure _
  | failure => exact sim_pure _

mutual

theorem muteW_fields (e : Env) (r : Registry) (h : Handler) : ∀ c : Chunk,
    MuteW d d' (writeFields e r h c)
  | .raw id size data => by
    cases h <;> simp only [writeFields] <;> first | exact sim_ub _ | exact muteW_raw _ _ _ _ _
  | .ext id size vals => by
    cases h <;> simp only [writeFields]
    all_goals first
      | exact sim_ub _
      | exact sim_ite (muteW_ext _ _ _ _ _ _) (sim_ub _)
  | .grp id size ty subs => by
    cases h <;> simp only [writeFields]
    all_goals first
      | exact sim_ub _
      | exact muteW_group _ _ _ _ _ (muteW_subs e r ty subs) _
  | .lst id size ty subs props => by
    cases h <;> simp only [writeFields]
    all_goals first
      | exact sim_ub _
      | exact muteW_group _ _ _ _ _ (muteW_subs e r ty subs) _
      | exact muteW_group _ _ _ _ _ (fun bp => sim_bind (muteW_props e r props bp)
          fun x => sim_ite (muteW_subs e r ty subs _) (sim_pure _)) _

theorem muteW_subs (e : Env) (r : Registry) (ty : ID) : ∀ (cs : List Chunk) (bp : Int),
    MuteW d d' (writeGroupSubChunks e r ty cs bp)
  | [], bp => by simp only [writeGroupSubChunks]; exact sim_pure _
  | c :: cs, bp => by
    simp only [writeGroupSubChunks]
    exact sim_bind (muteW_with e c (muteW_fields e r _ c)) fun _ => sim_ite
      (sim_bind (sim_ofOut _) fun b => muteW_subs e r ty cs b) (muteW_say _ _)

theorem muteW_props (e : Env) (r : Registry) : ∀ (cs : List Chunk) (bp : Int),
    MuteW d d' (writeListPropChunks e r cs bp)
  | [], bp => by simp only [writeListPropChunks]; exact sim_pure _
  | c :: cs, bp => by
    simp only [writeListPropChunks]
    exact sim_bind (muteW_with e c (muteW_fields e r _ c)) fun _ => sim_ite
      (sim_bind (sim_ofOut _) fun b => muteW_props e r cs b) (muteW_say _ _)

end

end

theorem muteW_fd {d d' : Env} (e : Env) (reg : Option Registry) (c : Chunk) :
    MuteW d d' (writeFd e reg c) := muteW_with e c (muteW_fields e _ _ c)

/-! ### Hierarchies that were read -/

theorem representable_read {e : Env} {r : Registry} {ft : ID} {w : List Byte}
    {c : Chunk} (h : Loose e r ft w c) : Representable c := by
  induction h with
  | @raw _ id data _ _ sz _ h1 _ _ =>
    intro d hd
    cases hd
    refine ⟨toInt_inInt sz, fun id size dt hx => ?_⟩
    have := toInt_inInt sz
    unfold inInt at this
    cases hx
    omega
  | @ext _ _ _ _ _ _ _ _ sz =>
    intro d hd
    cases hd
    exact ⟨toInt_inInt sz, fun id size dt hx => by cases hx⟩
  | @grp _ _ _ _ _ _ _ sz ps _ _ _ _ _ ih =>
    intro d hd
    cases hd with
    | self => exact ⟨toInt_inInt sz, fun id size dt hx => by cases hx⟩
    | grp hc hd =>
      obtain ⟨q, hq, rfl⟩ := List.mem_map.mp hc
      exact ih q hq d hd
  | @lst _ _ _ _ _ _ sz ps _ _ _ _ ih =>
    intro d hd
    cases hd with
    | self => exact ⟨toInt_inInt sz, fun id size dt hx => by cases hx⟩
    | sub hc hd =>
      obtain ⟨q, hq, rfl⟩ := List.mem_map.mp (List.mem_filter.mp hc).1
      exact ih q hq d hd
    | prop hc hd =>
      obtain ⟨q, hq, rfl⟩ := List.mem_map.mp (List.mem_filter.mp hc).1
      exact ih q hq d hd

theorem representable_fd {e : Env} (he : e.Sane) {reg : Option Registry} {s s' : RS} {c : Chunk}
    (h : readFd e reg s = .val (some c, s')) : Representable c := by
  unfold readFd at h
  rw [M.bind_apply] at h
  cases hr : readChunk e (selectChunkRegistry reg) (s.inp.length + 4) 0 s with
  | ub u => rw [hr] at h; simp at h
  | loop => rw [hr] at h; simp at h
  | val a =>
    obtain ⟨o, s1⟩ := a
    rw [hr] at h
    cases o with
    | none => simp [M.bind_apply, RS.emit] at h
    | some c' =>
      obtain ⟨w, _, hw⟩ := (read_loose he _).1 _ _ _ _ hr
      have : c' = c := by
        simp only [Out.val_bind, M.bind_apply] at h
        cases hg : fgetc s1 with
        | ub u => rw [hg] at h; simp at h
        | loop => rw [hg] at h; simp at h
        | val a =>
          obtain ⟨o, s2⟩ := a
          rw [hg] at h
          cases o with
          | none => simp at h; exact h.1
          | some b => simp [M.bind_apply, RS.emit] at h; exact h.1
      exact this ▸ representable_read hw

theorem shortFields_default : ShortFields (selectChunkRegistry none) :=
  fun ft id fields chk h => absurd h (noExt_default ft id fields chk)

/-! ### The tools -/

/-- The same files and the same output, with diagnostics that say the same. -/
def WorldSim (e e' : Env) (w w' : World) : Prop :=
  w.disk = w'.disk ∧ w.out = w'.out ∧ LogSim e e' w.log w'.log

section
variable {e e' : Env}

theorem sim_onLog {α : Type} {m m' : M (List Msg) α} (h : Sim (LogSim e e') m m') :
    Sim (WorldSim e e') (onLog m) (onLog m') := by
  rintro ⟨dk, o, l⟩ ⟨dk', o', l'⟩ ⟨h1, h2, h3⟩
  dsimp only at h1 h2 h3
  subst h1
  subst h2
  have := h l l' h3
  unfold onLog
  dsimp only
  generalize m l = x at this ⊢
  generalize m' l' = x' at this ⊢
  cases this with
  | val h => exact .val ⟨rfl, rfl, h⟩
  | ub => exact .ub
  | loop => exact .loop

variable (he : e.Sane) (he' : e'.Sane) (ha : Agree e e')
include he he' ha

theorem sim_readFile (name : String) (bs : Option (List Byte)) :
    Sim (LogSim e e') (readFile e none name bs) (readFile e' none name bs) := by
  intro l l' hl
  cases bs with
  | none => exact .val (hl.snoc (.inl rfl))
  | some bs =>
    unfold readFile
    rw [readFd_env he he' ha none shortFields_default]
    have := mute_fd (d := e) (d' := e') e' none ⟨bs, l⟩ ⟨bs, l'⟩ ⟨rfl, hl⟩
    dsimp only
    generalize readFd e' none ⟨bs, l⟩ = x at this ⊢
    generalize readFd e' none ⟨bs, l'⟩ = x' at this ⊢
    cases this with
    | val h => exact .val h.2
    | ub => exact .ub
    | loop => exact .loop

theorem sim_readNamed (n : Arg) : Sim (WorldSim e e') (readNamed e n) (readNamed e' n) := by
  intro w w' h
  unfold readNamed
  rw [← h.1]
  exact sim_onLog (sim_readFile he he' ha _ _) w w' h

omit ha in
theorem sim_writeFile (c : Chunk) (hc : Representable c) (x : Dest) :
    Sim (LogSim e e') (writeFile e none c x) (writeFile e' none c x) := by
  intro l l' hl
  unfold writeFile
  split
  · have hw : writeFd e none c = writeFd e' none c :=
      writeChunk_env he he' shortFields_default 0 c hc
    rw [hw]
    have := muteW_fd (d := e) (d' := e') e' none c ⟨[], x.cap + x.slack, l⟩
      ⟨[], x.cap + x.slack, l'⟩ ⟨rfl, rfl, hl⟩
    generalize writeFd e' none c ⟨[], x.cap + x.slack, l⟩ = o at this ⊢
    generalize writeFd e' none c ⟨[], x.cap + x.slack, l'⟩ = o' at this ⊢
    cases this with
    | val h =>
      dsimp only
      rw [h.1]
      exact .val h.2.2
    | ub => exact .ub
    | loop => exact .loop
  · exact .val (hl.snoc (.inl rfl))

omit ha in
theorem sim_writeNamed (y : System) (c : Chunk) (hc : Representable c) (n : Option Arg) :
    Sim (WorldSim e e') (writeNamed e y c n) (writeNamed e' y c n) := by
  unfold writeNamed
  refine sim_bind (sim_onLog (sim_writeFile he he' c hc _)) ?_
  rintro ⟨ok, res⟩ ⟨dk, o, l⟩ ⟨dk', o', l'⟩ ⟨h1, h2, h3⟩
  dsimp only at h1 h2 h3
  subst h1
  subst h2
  cases n <;> cases res <;> exact .val ⟨rfl, rfl, h3⟩

omit ha he he' in
theorem addAndUpdate_env (he : e.Sane) (he' : e'.Sane) : addAndUpdate e = addAndUpdate e' := by
  funext c x
  unfold addAndUpdate addToGroup
  rw [incrementChunkSize_env he he']

omit ha in
theorem sim_join_check (c : Chunk) :
    Sim (WorldSim e e') (onLog (check e none c)) (onLog (check e' none c)) :=
  sim_onLog (sim_check he he' none c)

theorem sim_joinNames : ∀ (ns : List Arg) (cat : Chunk),
    Sim (WorldSim e e') (joinNames e cat ns) (joinNames e' cat ns)
  | [], cat => by simp only [joinNames]; exact sim_pure _
  | n :: ns, cat => by
    simp only [joinNames]
    refine sim_bind (sim_readNamed he he' ha n) fun o => ?_
    cases o with
    | none => exact sim_pure _
    | some c =>
      refine sim_bind (sim_join_check he he' c) fun b => sim_ite ?_ (sim_pure _)
      rw [addAndUpdate_env he he']
      exact sim_bind (sim_ofOut _) fun cat' => sim_joinNames ns cat'

end

theorem readNamed_representable {e : Env} (he : e.Sane) {n : Arg} {w w' : World} {c : Chunk}
    (h : readNamed e n w = .val (some c, w')) : Representable c := by
  unfold readNamed onLog readFile at h
  cases hd : w.disk n with
  | none => rw [hd] at h; simp at h
  | some bs =>
    rw [hd] at h
    dsimp only at h
    cases hr : readFd e none ⟨bs, w.log⟩ with
    | ub u => rw [hr] at h; simp at h
    | loop => rw [hr] at h; simp at h
    | val a =>
      obtain ⟨o, s⟩ := a
      rw [hr] at h
      simp only [Out.val.injEq, Prod.mk.injEq] at h
      obtain ⟨rfl, _⟩ := h
      exact representable_fd he hr

/-- A group of representable chunks. -/
def GoodGroup (c : Chunk) : Prop := Representable c ∧ ∃ id size ty subs, c = .grp id size ty subs

theorem incrementChunkSize_inInt {e : Env} {a b x : Int}
    (h : incrementChunkSize e a b = .val x) : inInt x := by
  unfold incrementChunkSize at h
  cases h1 : addInt a idSize with
  | ub u => rw [h1] at h; simp at h
  | loop => rw [h1] at h; simp at h
  | val v =>
    rw [h1] at h
    simp only [Out.val_bind] at h
    split at h
    · unfold addInt at h
      split at h
      · rename_i hi
        simp only [Out.val.injEq] at h
        exact h ▸ hi
      · simp at h
    · simp only [Out.val.injEq] at h
      exact h ▸ wrapInt_inInt _

theorem goodGroup_add {e : Env} {cat c x : Chunk} (hg : GoodGroup cat) (hc : Representable c)
    (h : addAndUpdate e cat c = .val x) : GoodGroup x := by
  obtain ⟨hr, id, size, ty, subs, rfl⟩ := hg
  have key : ∀ ty', addToGroup e (.grp id size ty' subs) c = .val x → GoodGroup x := by
    intro ty' h
    simp only [addToGroup] at h
    cases hi : incrementChunkSize e size c.size with
    | ub u => rw [hi] at h; simp at h
    | loop => rw [hi] at h; simp at h
    | val v =>
      rw [hi] at h
      simp only [Out.val_bind, Out.val.injEq] at h
      subst h
      refine ⟨?_, _, _, _, _, rfl⟩
      intro d hd
      cases hd with
      | self => exact ⟨incrementChunkSize_inInt hi, fun _ _ _ hx => by cases hx⟩
      | grp hm hd =>
        rcases List.mem_append.mp hm with hm | hm
        · exact hr d (.grp hm hd)
        · obtain rfl := List.mem_singleton.mp hm
          exact hc d hd
  unfold addAndUpdate updateContentsType at h
  split at h
  · cases ht : c.groupType with
    | ub u => rw [ht] at h; simp at h
    | loop => rw [ht] at h; simp at h
    | val t =>
      rw [ht] at h
      simp only [Out.val_bind] at h
      exact key _ h
  · simp only [Out.val_bind] at h
    exact key _ h

theorem joinNames_good {e : Env} (he : e.Sane) : ∀ (ns : List Arg) {cat c : Chunk} {w w' : World},
    GoodGroup cat → joinNames e cat ns w = .val (some c, w') → GoodGroup c
  | [], cat, c, w, w', hg, h => by
    simp [joinNames] at h
    exact h.1 ▸ hg
  | n :: ns, cat, c, w, w', hg, h => by
    simp only [joinNames] at h
    rw [M.bind_apply] at h
    cases hr : readNamed e n w with
    | ub u => rw [hr] at h; simp at h
    | loop => rw [hr] at h; simp at h
    | val a =>
      obtain ⟨o, w1⟩ := a
      rw [hr] at h
      cases o with
      | none => simp at h
      | some x =>
        have hx := readNamed_representable he hr
        simp only [Out.val_bind, M.bind_apply] at h
        cases hk : onLog (check e none x) w1 with
        | ub u => rw [hk] at h; simp at h
        | loop => rw [hk] at h; simp at h
        | val a =>
          obtain ⟨b, w2⟩ := a
          rw [hk] at h
          cases b with
          | false => simp at h
          | true =>
            simp only [Out.val_bind, if_true, M.bind_apply] at h
            cases hu : addAndUpdate e cat x with
            | ub u => rw [hu] at h; simp at h
            | loop => rw [hu] at h; simp [M.ofOut] at h
            | val cat' =>
              rw [hu] at h
              simp only [M.ofOut_val, Out.val_bind] at h
              exact joinNames_good he ns (goodGroup_add hg hx hu) h

theorem goodGroup_empty : GoodGroup createEmptyCAT := by
  refine ⟨?_, _, _, _, _, rfl⟩
  intro d hd
  cases hd with
  | self => exact ⟨by decide, fun _ _ _ hx => by cases hx⟩
  | grp hm _ => cases hm

section
variable {e e' : Env} (he : e.Sane) (he' : e'.Sane) (ha : Agree e e')
include he he' ha

theorem sim_joinFiles (y : System) (ns : List Arg) (out : Option Arg) :
    Sim (WorldSim e e') (joinFiles e y ns out) (joinFiles e' y ns out) := by
  unfold joinFiles
  refine sim_bind' (sim_joinNames he he' ha ns _) fun o ho => ?_
  cases o with
  | none => exact sim_pure _
  | some c =>
    obtain ⟨s, s1, hs⟩ := ho
    have hg := joinNames_good he ns goodGroup_empty hs
    exact sim_bind (sim_writeNamed he he' y c hg.1 out) fun b => sim_ite (sim_pure _) (sim_pure _)

theorem sim_iffjoin (y : System) (gnu granted : Bool) (args : List Arg) :
    Sim (WorldSim e e') (iffjoin e y gnu granted args) (iffjoin e' y gnu granted args) := by
  unfold iffjoin
  refine sim_bind (sim_ofOut _) fun r => ?_
  cases r with
  | usage n => exact sim_pure _
  | version => exact sim_pure _
  | noInput => exact sim_pure _
  | run p => exact sim_joinFiles he he' ha y p.2 p.1

theorem sim_printFile (y : System) (k : Bool) (n : Option Arg) :
    Sim (WorldSim e e') (printFile e y k n) (printFile e' y k n) := by
  unfold printFile
  refine sim_bind ?_ fun o => ?_
  · cases n with
    | none => exact sim_onLog (sim_readFile he he' ha _ _)
    | some n => exact sim_readNamed he he' ha n
  · cases o with
    | none => exact sim_pure _
    | some c =>
      refine sim_bind (sim_ite (sim_pure _) (sim_join_check he he' c)) fun b => sim_ite ?_ (sim_pure _)
      refine sim_bind (sim_ofOut _) fun t => sim_bind ?_ fun _ => sim_pure _
      rintro ⟨dk, o, l⟩ ⟨dk', o', l'⟩ ⟨h1, h2, h3⟩
      dsimp only at h1 h2 h3
      subst h1
      subst h2
      exact .val ⟨rfl, rfl, h3⟩

theorem sim_iffpp (y : System) (gnu : Bool) (args : List Arg) :
    Sim (WorldSim e e') (iffpp e y gnu args) (iffpp e' y gnu args) := by
  unfold iffpp
  split
  · exact sim_pure _
  · exact sim_pure _
  · exact sim_pure _
  · exact sim_printFile he he' ha y _ _

end

end Iff
