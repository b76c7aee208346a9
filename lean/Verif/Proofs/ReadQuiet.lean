import Verif.Proofs.Grammar
import Verif.Proofs.ReadLog
/-
  What was read without a "truncated" warning: exactly an encoding of the result.
-/
namespace Iff
open Spec

/-- One of the two warnings about a group whose members do not end where the group does. -/
def Msg.Overrun : Msg → Prop
  | .truncGroup _ => True
  | .truncList _ => True
  | _ => False

/-- No such warning was given. -/
def Quiet (s : RS) : Prop := ∀ m ∈ s.log, ¬ m.Overrun

theorem Quiet.before {α : Type} {m : M RS α} (hm : Logs m) {s s' : RS} {a : α}
    (h : m s = .val (a, s')) (hq : Quiet s') : Quiet s := by
  obtain ⟨l, hl, _⟩ := hm _ _ _ h
  intro x hx
  exact hq x (by rw [hl]; exact List.mem_append_left _ hx)

theorem Spec.Encodes.span {strict : Prop} {w : List Byte} {c : Chunk} (h : Encodes strict w c) :
    (w.length : Int) = 8 + c.size + c.size % 2 ∧ 0 ≤ c.size := by
  have h1 := h.facts.length
  have h2 := h.facts.consistent.length
  have h3 : 0 ≤ c.size := by cases h <;> simp only [Chunk.size] <;> omega
  omega

theorem bites_even {ps : List Bite} (h : ∀ q ∈ ps, Encodes False q.1 q.2) :
    (bites ps).length % 2 = 0 :=
  flatMap_even fun m hm => by have := (h m hm).span; omega

theorem padWire_nil {size : Int} {p : List Byte} {pn : List Msg} (h : PadWire size p pn)
    (h0 : size % 2 = 0) : p = [] := by
  have := h.length
  exact List.length_eq_zero_iff.mp (by omega)

theorem read_quiet {e : Env} (he : e.Sane) : ∀ n : Nat,
    (∀ ft s c s', s.inp.length < 2147483648 → Quiet s' →
      readChunk e defaultRegistry n ft s = .val (some c, s') →
      ∃ w, s.inp = w ++ s'.inp ∧ Encodes False w c) ∧
    (∀ ty size subs bp s subs' bp' s', 0 ≤ bp → bp + (s.inp.length : Int) < 2147483648 → Quiet s' →
      readGroupSubChunks e defaultRegistry n ty size subs bp s = .val ((true, subs', bp'), s') →
      ∃ ps : List Bite, subs' = subs ++ ps.map Prod.snd ∧ s.inp = bites ps ++ s'.inp ∧
        (∀ q ∈ ps, Encodes False q.1 q.2) ∧ bp' = size ∧ size = bp + ((bites ps).length : Int)) ∧
    (∀ ty size subs props bp s subs' props' bp' s',
      0 ≤ bp → bp + (s.inp.length : Int) < 2147483648 → Quiet s' →
      readListSubChunks e defaultRegistry n ty size subs props bp s =
        .val ((true, subs', props', bp'), s') →
      ∃ ps : List Bite,
        subs' = subs ++ (ps.map Prod.snd).filter (fun c => c.id ≠ idPROP) ∧
        props' = props ++ (ps.map Prod.snd).filter (fun c => c.id = idPROP) ∧
        s.inp = bites ps ++ s'.inp ∧
        (∀ q ∈ ps, Encodes False q.1 q.2) ∧ bp' = size ∧ size = bp + ((bites ps).length : Int)) := by
  intro n
  induction n with
  | zero =>
    refine ⟨?_, ?_, ?_⟩
    · intro ft s c s' _ _ h; simp [readChunk] at h
    · intro ty size subs bp s subs' bp' s' _ _ _ h; simp [readGroupSubChunks] at h
    · intro ty size subs props bp s subs' props' bp' s' _ _ _ h; simp [readListSubChunks] at h
  | succ n ih =>
    obtain ⟨ihc, ihg, ihl⟩ := ih
    refine ⟨?_, ?_, ?_⟩
    · intro ft s c s' hlen hq h
      by_cases h8 : s.inp.length < 8
      · obtain ⟨log', hn⟩ := readChunk_short e defaultRegistry n ft s h8
        rw [hn] at h; simp at h
      · obtain ⟨inp, log⟩ := s
        obtain ⟨id, sz, rest, rfl⟩ := split_header (by simpa using h8 : 8 ≤ inp.length)
        simp only [List.length_append, bytes32_length] at hlen
        have hsz := toInt_inInt sz
        unfold inInt at hsz
        rw [readChunk_header] at h
        generalize hh : findChunkType defaultRegistry ft id = hd at h
        have grpcase : (hd = .form ∨ hd = .cat ∨ hd = .prop) →
            ∃ w, bytes32 id ++ bytes32 sz ++ rest = w ++ s'.inp ∧ Encodes False w c := by
          intro hk
          have key : readBody e defaultRegistry n hd id sz.toInt = (do
              let (st, v, bp) ← readField e .id id sz.toInt
                (match hd with | .cat => "contentsType" | _ => "formType") (.id 0) 0
              match st with
              | .more =>
                let (ok, subs, bp) ← readGroupSubChunks e defaultRegistry n v.toId sz.toInt [] bp
                finishChunk e sz.toInt ok (.grp id sz.toInt v.toId subs) bp
              | st => finishChunk e sz.toInt (deriveSuccess st) (.grp id sz.toInt v.toId []) bp) := by
            rcases hk with rfl | rfl | rfl <;> rfl
          rw [key, M.bind_apply] at h
          split at h
          · rename_i a s1 hf
            obtain ⟨st, v, bp⟩ := a
            rcases readField_id_inv he.wide hf with ⟨rfl, rfl, ty, rfl, hin⟩ | rfl
            · simp only [Val.toId, M.bind_apply] at h
              split at h
              · rename_i a s2 hg
                obtain ⟨ok, subs, bp⟩ := a
                obtain ⟨rfl, rfl, skip, p, pn, hp, hin2, hsk⟩ := finishChunk_inv h
                have hin' : rest = bytes32 ty ++ s1.inp := hin
                have hl1 : rest.length = 4 + s1.inp.length := by simp [hin']
                obtain ⟨ps, hsubs, hin3, hps, hb, hbs⟩ := ihg _ _ _ _ _ _ _ _ (by omega)
                  (by omega) (hq.before (logs_finish _ _ _ _ _) h) hg
                have := hsk (Int.le_of_eq hb.symm)
                subst this
                simp only [List.nil_append] at hsubs hin hin2
                subst hsubs
                have hev := bites_even hps
                obtain rfl := padWire_nil hp (by omega)
                refine ⟨header id sz.toInt ++ (be 4 ty.toNat ++ bites ps), ?_,
                  Encodes.group ps (default_group hh hk) hbs (by omega) hps⟩
                rw [header_eq_bytes (by omega), be4_eq, hin', hin3, hin2]
                simp
              · simp at h
              · simp at h
            · simp [deriveSuccess, finishChunk_false] at h
          · simp at h
          · simp at h
        cases hd with
        | raw =>
          obtain ⟨w, hw, hL⟩ := (read_loose he (n + 1)).1 ft ⟨bytes32 id ++ bytes32 sz ++ rest, log⟩
            c s' (by rw [readChunk_header, hh]; exact h)
          refine ⟨w, hw, ?_⟩
          simp only [readBody, createChunk] at h
          by_cases hm : e.mallocOk (toSize e sz.toInt) = true
          · simp only [hm, if_true, M.bind_apply, readRawChunk, fread] at h
            by_cases hl : (rest.take (toSize e sz.toInt)).length < toSize e sz.toInt
            · simp only [hl, if_true, M.bind_apply, RS.emit, M.pure_apply, finishChunk_false] at h
              simp at h
            · simp only [hl, if_false, M.bind_apply] at h
              rw [addInt_ok (by have := toInt_inInt sz; simpa using this)] at h
              simp only [M.ofOut_val, M.pure_apply] at h
              obtain ⟨_, rfl, _⟩ := finishChunk_inv h
              generalize hz : sz.toInt = z at hL
              cases hL with
              | @raw _ _ _ p pn sz' hh' hs hp _ =>
                have hn := default_raw hh'
                have := toInt_inInt sz'
                unfold inInt at this
                rw [← header_eq_bytes (by omega)]
                exact .data hn.1 hn.2 hs (by omega) hp.length False.elim
          · simp [hm] at h
        | ext fields chk =>
          rw [findChunkType_default] at hh
          repeat' split at hh
          all_goals simp at hh
        | form => exact grpcase (by simp)
        | cat => exact grpcase (by simp)
        | prop => exact grpcase (by simp)
        | list =>
          simp only [readBody, createChunk] at h
          rw [M.bind_apply] at h
          split at h
          · rename_i a s1 hf
            obtain ⟨st, v, bp⟩ := a
            rcases readField_id_inv he.wide hf with ⟨rfl, rfl, ty, rfl, hin⟩ | rfl
            · simp only [Val.toId, M.bind_apply] at h
              split at h
              · rename_i a s2 hg
                obtain ⟨ok, subs, props, bp⟩ := a
                cases ok with
                | false => simp [M.bind_apply, RS.emit] at h
                | true =>
                  simp only [if_true] at h
                  obtain ⟨_, rfl, skip, p, pn, hp, hin2, hsk⟩ := finishChunk_inv h
                  have hin' : rest = bytes32 ty ++ s1.inp := hin
                  have hl1 : rest.length = 4 + s1.inp.length := by simp [hin']
                  obtain ⟨ps, hsubs, hprops, hin3, hps, hb, hbs⟩ := ihl _ _ _ _ _ _ _ _ _ _
                    (by omega) (by omega) (hq.before (logs_finish _ _ _ _ _) h) hg
                  have := hsk (by omega)
                  subst this
                  simp only [List.nil_append] at hsubs hprops hin hin2
                  subst hsubs hprops
                  have hev := bites_even hps
                  obtain rfl := padWire_nil hp (by omega)
                  refine ⟨header idLIST sz.toInt ++ (be 4 ty.toNat ++ bites ps), ?_,
                    Encodes.list ps hbs (by omega) hps False.elim⟩
                  rw [header_eq_bytes (by omega), be4_eq, hin', hin3, hin2, default_list hh]
                  simp
              · simp at h
              · simp at h
            · simp [deriveSuccess, finishChunk_false] at h
          · simp at h
          · simp at h
    · intro ty size subs bp s subs' bp' s' h0 hlen hq h
      unfold readGroupSubChunks at h
      by_cases hlt : bp < size
      · rw [if_pos hlt, M.bind_apply] at h
        split at h
        · rename_i a s1 hc
          cases a with
          | none => simp at h
          | some c =>
            simp only [M.bind_apply] at h
            have hq1 : Quiet s1 := by
              split at h
              · rename_i b s2 hb
                have := hq.before ((read_logs n).2.1 _ _ _ _) h
                exact this.before (logs_ofOut _) hb
              · simp at h
              · simp at h
            obtain ⟨w, hw, hE⟩ := ihc _ _ _ _ (by omega) hq1 hc
            have hsp := hE.span
            have hwl : s.inp.length = w.length + s1.inp.length := by rw [hw]; simp
            rw [incrementChunkSize_ok e he.wide h0 hsp.2 (by omega)] at h
            simp only [M.ofOut_val] at h
            obtain ⟨ps, hsubs, hin, hps, hb, hbs⟩ := ihg _ _ _ _ _ _ _ _ (by omega) (by omega) hq h
            refine ⟨(w, c) :: ps, by simp [hsubs], ?_, ?_, hb, ?_⟩
            · rw [hw, hin]; simp [bites]
            · intro q hq
              rcases List.mem_cons.mp hq with rfl | hq
              · exact hE
              · exact hps q hq
            · rw [bites_cons, List.length_append]; simp only; omega
        · simp at h
        · simp at h
      · rw [if_neg hlt] at h
        by_cases hgt : bp > size
        · simp [hgt, M.bind_apply, RS.emit] at h
          obtain ⟨⟨rfl, rfl⟩, rfl⟩ := h
          exact absurd trivial (hq (.truncGroup size) (by simp))
        · simp [hgt] at h
          obtain ⟨⟨rfl, rfl⟩, rfl⟩ := h
          refine ⟨[], by simp, by simp [bites], by simp, by omega, by simp [bites]; omega⟩
    · intro ty size subs props bp s subs' props' bp' s' h0 hlen hq h
      unfold readListSubChunks at h
      by_cases hlt : bp < size
      · rw [if_pos hlt, M.bind_apply] at h
        split at h
        · rename_i a s1 hc
          cases a with
          | none => simp at h
          | some c =>
            simp only [M.bind_apply] at h
            have hq1 : Quiet s1 := by
              split at h
              · rename_i b s2 hb
                have : Quiet s2 := by
                  split at h
                  all_goals exact hq.before ((read_logs n).2.2 _ _ _ _ _) h
                exact this.before (logs_ofOut _) hb
              · simp at h
              · simp at h
            obtain ⟨w, hw, hE⟩ := ihc _ _ _ _ (by omega) hq1 hc
            have hsp := hE.span
            have hwl : s.inp.length = w.length + s1.inp.length := by rw [hw]; simp
            rw [incrementChunkSize_ok e he.wide h0 hsp.2 (by omega)] at h
            simp only [M.ofOut_val] at h
            have hmem : ∀ {ps : List Bite}, (∀ q ∈ ps, Encodes False q.1 q.2) →
                ∀ q ∈ (w, c) :: ps, Encodes False q.1 q.2 := by
              intro ps hps q hq
              rcases List.mem_cons.mp hq with rfl | hq
              · exact hE
              · exact hps q hq
            by_cases hid : c.id = idPROP
            · rw [if_pos hid] at h
              obtain ⟨ps, hsubs, hprops, hin, hps, hb, hbs⟩ :=
                ihl _ _ _ _ _ _ _ _ _ _ (by omega) (by omega) hq h
              refine ⟨(w, c) :: ps, ?_, ?_, ?_, hmem hps, hb, ?_⟩
              · simp [hsubs, hid]
              · simp [hprops, hid]
              · rw [hw, hin]; simp [bites]
              · rw [bites_cons, List.length_append]; simp only; omega
            · rw [if_neg hid] at h
              obtain ⟨ps, hsubs, hprops, hin, hps, hb, hbs⟩ :=
                ihl _ _ _ _ _ _ _ _ _ _ (by omega) (by omega) hq h
              refine ⟨(w, c) :: ps, ?_, ?_, ?_, hmem hps, hb, ?_⟩
              · simp [hsubs, hid]
              · simp [hprops, hid]
              · rw [hw, hin]; simp [bites]
              · rw [bites_cons, List.length_append]; simp only; omega
        · simp at h
        · simp at h
      · rw [if_neg hlt] at h
        by_cases hgt : bp > size
        · simp [hgt, M.bind_apply, RS.emit] at h
          obtain ⟨⟨rfl, rfl, rfl⟩, rfl⟩ := h
          exact absurd trivial (hq (.truncList size) (by simp))
        · simp [hgt] at h
          obtain ⟨⟨rfl, rfl, rfl⟩, rfl⟩ := h
          refine ⟨[], by simp, by simp, by simp [bites], by simp, by omega, by simp [bites]; omega⟩

/-- Reading a well-formed string gives no such warning. -/
theorem Wire.quiet {e : Env} {r : Registry} {ft : ID} {w : List Byte} {c : Chunk}
    {notes : List Msg} (h : Wire e r ft w c notes) : ∀ m ∈ notes, ¬ m.Overrun := by
  have pad : ∀ {size p pn}, PadWire size p pn → ∀ m ∈ pn, ¬ m.Overrun := by
    intro size p pn h m hm
    rcases h with ⟨_, _, rfl⟩ | ⟨_, b, _, rfl⟩
    · simp at hm
    · split at hm <;> simp at hm
      subst hm; simp [Msg.Overrun]
  induction h with
  | raw _ _ _ _ hp => exact pad hp
  | grp ps _ _ _ _ _ hp ih =>
    intro m hm
    rcases List.mem_append.mp hm with hm | hm
    · obtain ⟨q, hq, hm⟩ := List.mem_flatMap.mp hm
      exact ih q hq m hm
    · exact pad hp m hm
  | lst ps _ _ _ _ hp ih =>
    intro m hm
    rcases List.mem_append.mp hm with hm | hm
    · obtain ⟨q, hq, hm⟩ := List.mem_flatMap.mp hm
      exact ih q hq m hm
    · exact pad hp m hm
  | ext _ _ _ _ _ _ _ hp =>
    intro m hm
    rcases List.mem_append.mp hm with hm | hm
    · split at hm <;> simp at hm
      subst hm; simp [Msg.Overrun]
    · exact pad hp m hm

end Iff
