import Verif.Model.Tools
import Verif.Proofs.ReadShift
import Verif.Proofs.CheckShift
import Verif.Props.Grammar
import Verif.Props.Read
import Verif.Props.Build
import Verif.Proofs.Fine
/-
  Lemmas about the tools.
-/
namespace Iff
open Spec

theorem default_groups : GroupsEverywhere defaultRegistry := by
  have key : ∀ (t : ChunkType), t ∈ globalChunkTypes → ∀ ft, HandlerFor defaultRegistry ft t.id t.handler := by
    intro t ht ft
    refine Or.inr ⟨by simp [defaultRegistry], Or.inl ⟨[], _, [], t, rfl, ht, rfl, rfl, by simp⟩⟩
  exact
    { form := key ⟨idFORM, .form⟩ (by simp [globalChunkTypes])
      cat := key ⟨idCAT, .cat⟩ (by simp [globalChunkTypes])
      list := key ⟨idLIST, .list⟩ (by simp [globalChunkTypes])
      prop := key ⟨idPROP, .prop⟩ (by simp [globalChunkTypes]) }

/-- What reading a file with the default registry gives. -/
structure ReadFacts (c : Chunk) : Prop where
  sound : Sound defaultRegistry 0 c
  props : PropArrays c

theorem readFd_facts {e : Env} (he : e.Sane) {s s' : RS} {c : Chunk}
    (h : readFd e none s = .val (some c, s')) : ReadFacts c := by
  obtain ⟨s1, h1, _⟩ := readFd_some h
  obtain ⟨w, _, hl⟩ := (read_loose he _).1 _ _ _ _ h1
  obtain ⟨h2, h3, h4⟩ := hl.sound defaultRegistry_sorted default_groups
  exact ⟨⟨h2, fun _ _ _ hw => (hl.data hw).1, hl.small, h4⟩, h3⟩

/-- `IFF_readFile` and an empty log. -/
theorem readFile_eq (e : Env) (name : String) (bs : List Byte) (log : List Msg) :
    readFile e none name (some bs) log =
      match readFd e none ⟨bs, []⟩ with
      | .val (c, s) => .val (c, log ++ s.log)
      | .ub u => .ub u
      | .loop => .loop := by
  unfold readFile
  simp only
  rw [readFd_shifts]
  cases readFd e none ⟨bs, []⟩ with
  | val x => obtain ⟨c, s⟩ := x; rfl
  | ub u => rfl
  | loop => rfl

/-- `IFF_check` and an empty log. -/
theorem check_eq (e : Env) (c : Chunk) (log : List Msg) :
    check e none c log = relogged log (check e none c []) := by
  have := relogs_check e none c log []
  rwa [List.append_nil] at this

theorem check_val {e : Env} {c : Chunk} {log log' : List Msg} {b : Bool}
    (h : check e none c log = .val (b, log')) : ∃ l, check e none c [] = .val (b, l) := by
  rw [check_eq] at h
  cases hc : check e none c [] with
  | val x =>
    obtain ⟨b', l⟩ := x
    rw [hc] at h
    simp only [relogged, Out.val.injEq, Prod.mk.injEq] at h
    exact ⟨l, by rw [h.1]⟩
  | ub u => rw [hc] at h; cases h
  | loop => rw [hc] at h; cases h

theorem readFile_val {e : Env} {f : Source} {log log' : List Msg} {c : Chunk}
    (h : readFile e none f.name f.contents log = .val (some c, log')) :
    ∃ bs s, f.contents = some bs ∧ readFd e none ⟨bs, []⟩ = .val (some c, s) := by
  cases hf : f.contents with
  | none => rw [hf] at h; simp [readFile] at h
  | some bs =>
    rw [hf, readFile_eq] at h
    cases hr : readFd e none ⟨bs, []⟩ with
    | val x =>
      obtain ⟨c', s⟩ := x
      rw [hr] at h
      simp only [Out.val.injEq, Prod.mk.injEq] at h
      exact ⟨bs, s, rfl, by rw [hr, h.1]⟩
    | ub u => rw [hr] at h; cases h
    | loop => rw [hr] at h; cases h

theorem readFile_none {e : Env} {f : Source} {log log' : List Msg}
    (h : readFile e none f.name f.contents log = .val (none, log')) :
    ∀ bs s c, f.contents = some bs → readFd e none ⟨bs, []⟩ ≠ .val (some c, s) := by
  intro bs s c hf hr
  rw [hf, readFile_eq, hr] at h
  simp at h

theorem fine_readFd {e : Env} (he : e.Sane) (s : RS) : Fine (readFd e none s) :=
  ⟨C15_terminates e he none s, fun u h => C16_only_overflow e he none s u h⟩

theorem fine_readFile {e : Env} (he : e.Sane) (f : Source) (log : List Msg) :
    Fine (readFile e none f.name f.contents log) := by
  cases hf : f.contents with
  | none => exact Fine.val _
  | some bs =>
    rw [readFile_eq]
    have := fine_readFd he ⟨bs, []⟩
    cases hr : readFd e none ⟨bs, []⟩ with
    | val x => exact Fine.val _
    | ub u => rw [hr] at this; exact ⟨by simp, by simpa using this.2⟩
    | loop => rw [hr] at this; exact absurd rfl this.1

theorem fine_checkRead {e : Env} {c : Chunk} (h : ReadFacts c) (log : List Msg) :
    Fine (check e none c log) := by
  have hf := fine_check (e := e) defaultRegistry_sorted default_groups c 0 h.sound.dispatched h.props
    h.sound.props
  unfold check
  exact fine_iteM (fun _ => fine_say _ _) fun _ => hf _

theorem check_composite {e : Env} {c : Chunk} {log log' : List Msg}
    (h : check e none c log = .val (true, log')) : Composite c.id := by
  unfold check at h
  split at h
  · simp [M.bind_apply, emit] at h
  · rename_i hn
    unfold Composite
    refine Classical.byContradiction fun hc => hn ⟨fun a => hc (Or.inl a),
      fun a => hc (Or.inr (Or.inl a)), fun a => hc (Or.inr (Or.inr a))⟩

end Iff
