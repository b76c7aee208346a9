import Verif.Proofs.ReadBase
/-
  Everything a successful read can have consumed: the relation `Loose` between byte strings and
  hierarchies, including hierarchies whose declared sizes lie.
-/
namespace Iff
open Spec

/-- The successive values of `*bytesProcessed` while the members of a group with the given declared
size are read. -/
def Trace (e : Env) (size : Int) : Int → List Int → Int → Prop
  | bp, [], bp' => size ≤ bp ∧ bp' = bp
  | bp, s :: ss, bp' => bp < size ∧ ∃ b, incrementChunkSize e bp s = .val b ∧ Trace e size b ss bp'

/-- Bytes and the chunk read from them. -/
abbrev Bite := List Byte × Chunk

/-- The concatenated bytes. -/
def bites (ps : List Bite) : List Byte := ps.flatMap Prod.fst

/-- `w` can have been read as `c`. -/
inductive Loose (e : Env) (r : Registry) : ID → List Byte → Chunk → Prop
  | raw {ft id data p pn} {sz : BitVec 32} : findChunkType r ft id = .raw →
      sz.toInt = ((data.length : Nat) : Int) → PadWire sz.toInt p pn →
      e.mallocOk data.length = true →
      Loose e r ft (bytes32 id ++ bytes32 sz ++ data ++ p) (.raw id sz.toInt data)
  | grp {ft id ty p pn h bp} {sz : BitVec 32} (ps : List Bite) : findChunkType r ft id = h →
      h = .form ∨ h = .cat ∨ h = .prop → (∀ q ∈ ps, Loose e r ty q.1 q.2) →
      Trace e sz.toInt 4 (ps.map fun q => q.2.size) bp → PadWire sz.toInt p pn →
      Loose e r ft (bytes32 id ++ bytes32 sz ++ (bytes32 ty ++ bites ps) ++ p)
        (.grp id sz.toInt ty (ps.map Prod.snd))
  | lst {ft id ty p pn bp} {sz : BitVec 32} (ps : List Bite) : findChunkType r ft id = .list →
      (∀ q ∈ ps, Loose e r ty q.1 q.2) →
      Trace e sz.toInt 4 (ps.map fun q => q.2.size) bp → PadWire sz.toInt p pn →
      Loose e r ft (bytes32 id ++ bytes32 sz ++ (bytes32 ty ++ bites ps) ++ p)
        (.lst idLIST sz.toInt ty ((ps.map Prod.snd).filter fun c => c.id ≠ idPROP)
          ((ps.map Prod.snd).filter fun c => c.id = idPROP))
  | ext {ft id vals body p pn fields chk} {sz : BitVec 32} :
      findChunkType r ft id = .ext fields chk → vals.map Val.kind = fields.map Field.kind →
      PadWire sz.toInt p pn →
      Loose e r ft (bytes32 id ++ bytes32 sz ++ body ++ p) (.ext id sz.toInt vals)

/-- The malloc of a negative size fails. -/
theorem malloc_nonneg {e : Env} (he : e.Sane) {size : Int} (h : inInt size)
    (hm : e.mallocOk (toSize e size) = true) : 0 ≤ size ∧ toSize e size = size.toNat := by
  by_cases h0 : 0 ≤ size
  · exact ⟨h0, toSize_nonneg e he.wide h0 (by unfold inInt at h; omega)⟩
  · exfalso
    have h1 := toSize_neg e he.wide (x := size) (by omega) (by unfold inInt at h; omega)
    have hw := he.wide
    have hp : 2 ^ e.sizeBits = 2 * 2 ^ (e.sizeBits - 1) := by
      conv => lhs; rw [show e.sizeBits = (e.sizeBits - 1) + 1 by omega]
      rw [Nat.pow_succ, Nat.mul_comm]
    have h31 : 2 ^ 31 ≤ 2 ^ (e.sizeBits - 1) := Nat.pow_le_pow_right (by decide) (by omega)
    have h31' : (2 : Nat) ^ 31 = 2147483648 := by decide
    have : 2 ^ (e.sizeBits - 1) ≤ toSize e size := by unfold inInt at h; omega
    rw [he.halfSpace _ this] at hm
    simp at hm

theorem toInt_inInt (v : BitVec 32) : inInt v.toInt := by
  have h1 := BitVec.le_toInt v
  have h2 := BitVec.toInt_lt (x := v)
  unfold inInt; simp at h1 h2; omega

/-- Inversion of `finishChunk`. -/
theorem finishChunk_inv {e : Env} {size bp : Int} {ok : Bool} {c c' : Chunk} {s s' : RS}
    (h : finishChunk e size ok c bp s = .val (some c', s')) :
    ok = true ∧ c' = c ∧ ∃ skip p pn, PadWire size p pn ∧ s.inp = skip ++ p ++ s'.inp ∧
      (size ≤ bp → skip = []) := by
  cases ok with
  | false => simp [finishChunk] at h
  | true =>
    refine ⟨rfl, ?_⟩
    by_cases hlt : bp < size
    · simp only [finishChunk, skipUnknownBytes, if_true, if_pos hlt, M.bind_apply] at h
      cases hsub : subInt size bp with
      | ub u => simp [hsub] at h
      | loop => simp [hsub, M.ofOut] at h
      | val n =>
        simp only [hsub, M.ofOut_val, fseekCur] at h
        by_cases hse : e.seekable = true
        · simp only [if_pos hse, if_true, M.bind_apply, RS.emit, M.pure_apply] at h
          obtain ⟨b, s2, hp⟩ := readPaddingByte_cases size c.id
            ⟨s.inp.drop n.toNat, s.log ++ [.skipped n c.id]⟩
          rw [hp] at h
          cases b with
          | false => simp at h
          | true =>
            simp only [if_true, M.pure_apply, Out.val.injEq, Prod.mk.injEq, Option.some.injEq] at h
            obtain ⟨rfl, rfl⟩ := h
            obtain ⟨p, pn, h1, h2, _⟩ := readPaddingByte_inv hp
            refine ⟨rfl, s.inp.take n.toNat, p, pn, h1, ?_, fun hle => by omega⟩
            simp only at h2
            rw [List.append_assoc, ← h2, List.take_append_drop]
        · simp [hse] at h
    · rw [finishChunk_done e c (by omega)] at h
      obtain ⟨b, s2, hp⟩ := readPaddingByte_cases size c.id s
      rw [hp] at h
      cases b with
      | false => simp at h
      | true =>
        simp only [Out.val.injEq, Prod.mk.injEq, Option.some.injEq] at h
        obtain ⟨rfl, rfl⟩ := h
        obtain ⟨p, pn, h1, h2, _⟩ := readPaddingByte_inv hp
        exact ⟨rfl, [], p, pn, h1, by simpa using h2, fun _ => rfl⟩

theorem readVal_inv {e : Env} {k : FieldKind} {id : ID} {a : String} {s : RS} {x : Option Val}
    {s' : RS} (h : readVal e k id a s = .val (x, s')) :
    (∃ w, s.inp = w ++ s'.inp) ∧ ∀ v, x = some v → v.kind = k := by
  obtain ⟨inp, log⟩ := s
  cases k <;> simp only [readVal, readWord_eq, readLong_eq, readId_eq, M.bind_apply] at h
  case ubyte =>
    by_cases hl : inp.length < 1
    · rw [readUByte_short _ _ _ hl] at h; simp at h; obtain ⟨rfl, rfl⟩ := h
      exact ⟨⟨inp, by simp⟩, by simp⟩
    · match inp, hl with
      | b :: bs, _ =>
        rw [readUByte_ok] at h; simp at h; obtain ⟨rfl, rfl⟩ := h
        exact ⟨⟨[b], by simp⟩, by simp [Val.kind]⟩
      | [], hl => simp at hl
  case uword =>
    by_cases hl : inp.length < 2
    · rw [readUWord_short _ _ _ _ hl] at h; simp at h; obtain ⟨rfl, rfl⟩ := h
      exact ⟨⟨inp, by simp⟩, by simp⟩
    · obtain ⟨a, b, rest, rfl⟩ := cons2_of_length (by omega : 2 ≤ inp.length)
      rw [readUWord_ok] at h; simp at h; obtain ⟨rfl, rfl⟩ := h
      exact ⟨⟨[a, b], by simp⟩, by simp [Val.kind]⟩
  case word =>
    by_cases hl : inp.length < 2
    · rw [readUWord_short _ _ _ _ hl] at h; simp at h; obtain ⟨rfl, rfl⟩ := h
      exact ⟨⟨inp, by simp⟩, by simp⟩
    · obtain ⟨a, b, rest, rfl⟩ := cons2_of_length (by omega : 2 ≤ inp.length)
      rw [readUWord_ok] at h; simp at h; obtain ⟨rfl, rfl⟩ := h
      exact ⟨⟨[a, b], by simp⟩, by simp [Val.kind]⟩
  all_goals
    by_cases hl : inp.length < 4
    · rw [readULong_short _ _ _ _ hl] at h; simp at h; obtain ⟨rfl, rfl⟩ := h
      exact ⟨⟨inp, by simp⟩, by simp⟩
    · obtain ⟨a, b, c, d, rest, rfl⟩ := cons4_of_length (by omega : 4 ≤ inp.length)
      rw [readULong_ok] at h; simp at h; obtain ⟨rfl, rfl⟩ := h
      exact ⟨⟨[a, b, c, d], by simp⟩, by simp [Val.kind]⟩

/-- Inversion of the field loop of an application chunk. -/
theorem readExtFields_inv {e : Env} {id : ID} {size : Int} :
    ∀ {fields : List Field} {cur done : List Val} {bp : Int} {s : RS} {ok : Bool}
      {vals : List Val} {bp' : Int} {s' : RS},
      cur.map Val.kind = fields.map Field.kind →
      readExtFields e id size fields cur done bp s = .val ((ok, vals, bp'), s') →
      (∃ w, s.inp = w ++ s'.inp) ∧ ∃ vs, vals = done ++ vs ∧ vs.map Val.kind = fields.map Field.kind
  | [], [], done, bp, s, ok, vals, bp', s', hk, h => by
    simp [readExtFields] at h
    obtain ⟨⟨_, rfl, _⟩, rfl⟩ := h
    exact ⟨⟨[], rfl⟩, [], by simp, rfl⟩
  | f :: fs, v :: vs, done, bp, s, ok, vals, bp', s', hk, h => by
    simp only [List.map_cons, List.cons.injEq] at hk
    unfold readExtFields at h
    simp only [M.bind_apply, readField] at h
    by_cases hf : fieldDoesNotFitInChunk e f.kind.size size bp = true
    · simp [hf] at h
      obtain ⟨⟨_, rfl, _⟩, rfl⟩ := h
      exact ⟨⟨[], rfl⟩, v :: vs, by simp, by simp [hk]⟩
    · simp only [hf] at h
      simp only [Bool.false_eq_true, if_false, M.bind_apply] at h
      cases hv : readVal e f.kind id f.name s with
      | ub u => simp [hv] at h
      | loop => simp [hv] at h
      | val a =>
        obtain ⟨x, s1⟩ := a
        rw [hv] at h
        obtain ⟨⟨w1, hw1⟩, hkind⟩ := readVal_inv hv
        cases x with
        | none =>
          simp [deriveSuccess] at h
          obtain ⟨⟨_, rfl, _⟩, rfl⟩ := h
          exact ⟨⟨w1, hw1⟩, v :: vs, by simp, by simp [hk]⟩
        | some u =>
          simp only [M.pure_apply] at h
          obtain ⟨⟨w2, hw2⟩, us, hus, hus2⟩ := readExtFields_inv hk.2 h
          refine ⟨⟨w1 ++ w2, by rw [hw1, hw2]; simp⟩, u :: us, by simp [hus], ?_⟩
          simp [hus2, hkind u rfl]
  | [], v :: vs, _, _, _, _, _, _, _, hk, _ => by simp at hk
  | f :: fs, [], _, _, _, _, _, _, _, hk, _ => by simp at hk

theorem readField_id_inv {e : Env} (he : 32 ≤ e.sizeBits) {id : ID} {size : Int} {attr : String}
    {s : RS} {st : FieldStatus} {v : Val} {bp : Int} {s' : RS}
    (h : readField e .id id size attr (.id 0) 0 s = .val ((st, v, bp), s')) :
    (st = .more ∧ bp = 4 ∧ ∃ ty, v = .id ty ∧ s.inp = bytes32 ty ++ s'.inp) ∨ st = .failure := by
  by_cases hl : s.inp.length < 4
  · rw [readField_id_short _ _ _ _ _ _ hl] at h
    simp at h
    right; exact h.1.1.symm
  · obtain ⟨inp, log⟩ := s
    obtain ⟨ty, rest, rfl⟩ := split32 (by simpa using hl : 4 ≤ inp.length)
    rw [readField_id_ok e he] at h
    simp only [Out.val.injEq, Prod.mk.injEq] at h
    obtain ⟨⟨rfl, rfl, rfl⟩, rfl⟩ := h
    left; exact ⟨rfl, rfl, ty, rfl, rfl⟩

theorem read_loose {e : Env} (he : e.Sane) {r : Registry} : ∀ n : Nat,
    (∀ ft s c s', readChunk e r n ft s = .val (some c, s') →
      ∃ w, s.inp = w ++ s'.inp ∧ Loose e r ft w c) ∧
    (∀ ty size subs bp s subs' bp' s',
      readGroupSubChunks e r n ty size subs bp s = .val ((true, subs', bp'), s') →
      ∃ ps : List Bite, subs' = subs ++ ps.map Prod.snd ∧ s.inp = bites ps ++ s'.inp ∧
        (∀ q ∈ ps, Loose e r ty q.1 q.2) ∧ Trace e size bp (ps.map fun q => q.2.size) bp') ∧
    (∀ ty size subs props bp s subs' props' bp' s',
      readListSubChunks e r n ty size subs props bp s = .val ((true, subs', props', bp'), s') →
      ∃ ps : List Bite,
        subs' = subs ++ (ps.map Prod.snd).filter (fun c => c.id ≠ idPROP) ∧
        props' = props ++ (ps.map Prod.snd).filter (fun c => c.id = idPROP) ∧
        s.inp = bites ps ++ s'.inp ∧
        (∀ q ∈ ps, Loose e r ty q.1 q.2) ∧ Trace e size bp (ps.map fun q => q.2.size) bp') := by
  intro n
  induction n with
  | zero =>
    refine ⟨?_, ?_, ?_⟩
    · intro ft s c s' h; simp [readChunk] at h
    · intro ty size subs bp s subs' bp' s' h; simp [readGroupSubChunks] at h
    · intro ty size subs props bp s subs' props' bp' s' h; simp [readListSubChunks] at h
  | succ n ih =>
    obtain ⟨ihc, ihg, ihl⟩ := ih
    refine ⟨?_, ?_, ?_⟩
    · intro ft s c s' h
      by_cases h8 : s.inp.length < 8
      · obtain ⟨log', hn⟩ := readChunk_short e r n ft s h8
        rw [hn] at h; simp at h
      · obtain ⟨inp, log⟩ := s
        obtain ⟨id, sz, rest, rfl⟩ := split_header (by simpa using h8 : 8 ≤ inp.length)
        rw [readChunk_header] at h
        generalize hh : findChunkType r ft id = hd at h
        have grpcase : (hd = .form ∨ hd = .cat ∨ hd = .prop) →
            ∃ w, bytes32 id ++ bytes32 sz ++ rest = w ++ s'.inp ∧ Loose e r ft w c := by
          intro hk
          have key : readBody e r n hd id sz.toInt = (do
              let (st, v, bp) ← readField e .id id sz.toInt
                (match hd with | .cat => "contentsType" | _ => "formType") (.id 0) 0
              match st with
              | .more =>
                let (ok, subs, bp) ← readGroupSubChunks e r n v.toId sz.toInt [] bp
                finishChunk e sz.toInt ok (.grp id sz.toInt v.toId subs) bp
              | st => finishChunk e sz.toInt (deriveSuccess st) (.grp id sz.toInt v.toId []) bp) := by
            rcases hk with rfl | rfl | rfl <;> rfl
          rw [key, M.bind_apply] at h
          split at h
          · rename_i a s1 hf
            obtain ⟨st, v, bp⟩ := a
            rcases readField_id_inv he.wide hf with ⟨rfl, rfl, ty, rfl, hin⟩ | rfl
            · simp only [Val.toId, M.bind_apply] at h
              split at h
              · rename_i a s2 hg
                obtain ⟨ok, subs, bp⟩ := a
                obtain ⟨rfl, rfl, skip, p, pn, hp, hin2, hsk⟩ := finishChunk_inv h
                obtain ⟨ps, hsubs, hin3, hps, htr⟩ := ihg _ _ _ _ _ _ _ _ hg
                have hle : sz.toInt ≤ bp := by
                  clear hps hsubs hin3 hg h hin hf key
                  generalize (4 : Int) = b0 at htr
                  induction ps generalizing b0 with
                  | nil => exact htr.2 ▸ htr.1
                  | cons q ps ih => obtain ⟨_, b, _, h2⟩ := htr; exact ih b h2
                have := hsk hle
                subst this
                simp only [List.nil_append] at hsubs hin hin2
                subst hsubs
                refine ⟨_, ?_, Loose.grp ps hh hk hps htr hp⟩
                rw [hin, hin3, hin2]
                simp
              · simp at h
              · simp at h
            · simp [deriveSuccess, finishChunk_false] at h
          · simp at h
          · simp at h
        cases hd with
        | raw =>
          simp only [readBody, createChunk] at h
          by_cases hm : e.mallocOk (toSize e sz.toInt) = true
          · obtain ⟨h0, hts⟩ := malloc_nonneg he (toInt_inInt sz) hm
            simp only [hm, if_true, M.bind_apply, readRawChunk, fread] at h
            by_cases hl : (rest.take (toSize e sz.toInt)).length < toSize e sz.toInt
            · simp only [hl, if_true, M.bind_apply, RS.emit, M.pure_apply, finishChunk_false] at h
              simp at h
            · simp only [hl, if_false, M.bind_apply] at h
              rw [addInt_ok (by have := toInt_inInt sz; simpa using this)] at h
              simp only [M.ofOut_val, M.pure_apply] at h
              obtain ⟨_, rfl, skip, p, pn, hp, hin, hsk⟩ := finishChunk_inv h
              have := hsk (by omega)
              subst this
              have hlen : (rest.take (toSize e sz.toInt)).length = sz.toInt.toNat := by
                rw [List.length_take] at hl ⊢; omega
              simp only [List.nil_append] at hin
              refine ⟨bytes32 id ++ bytes32 sz ++ rest.take (toSize e sz.toInt) ++ p, ?_,
                Loose.raw hh ?_ hp ?_⟩
              · conv => lhs; rw [← List.take_append_drop (toSize e sz.toInt) rest, hin]
                simp
              · omega
              · rw [hlen, ← hts]; exact hm
          · simp [hm] at h
        | ext fields chk =>
          simp only [readBody, createChunk, M.bind_apply] at h
          split at h
          · rename_i a s1 hf
            obtain ⟨ok, vals, bp⟩ := a
            simp only at h
            obtain ⟨rfl, rfl, skip, p, pn, hp, hin, _⟩ := finishChunk_inv h
            have hz : (fields.map fun f => f.kind.zero).map Val.kind = fields.map Field.kind := by
              rw [List.map_map]
              congr 1
              funext f
              cases hk : f.kind <;> simp [FieldKind.zero, Val.kind, hk]
            obtain ⟨⟨w, hw⟩, vs, hvs, hvk⟩ := readExtFields_inv hz hf
            simp only [List.nil_append] at hvs
            subst hvs
            refine ⟨bytes32 id ++ bytes32 sz ++ (w ++ skip) ++ p, ?_, Loose.ext hh hvk hp⟩
            simp only at hw
            rw [hw, hin]; simp
          · simp at h
          · simp at h
        | form => exact grpcase (by simp)
        | cat => exact grpcase (by simp)
        | prop => exact grpcase (by simp)
        | list =>
          simp only [readBody, createChunk] at h
          rw [M.bind_apply] at h
          split at h
          · rename_i a s1 hf
            obtain ⟨st, v, bp⟩ := a
            rcases readField_id_inv he.wide hf with ⟨rfl, rfl, ty, rfl, hin⟩ | rfl
            · simp only [Val.toId, M.bind_apply] at h
              split at h
              · rename_i a s2 hg
                obtain ⟨ok, subs, props, bp⟩ := a
                cases ok with
                | false => simp [M.bind_apply, RS.emit] at h
                | true =>
                  simp only [if_true] at h
                  obtain ⟨_, rfl, skip, p, pn, hp, hin2, hsk⟩ := finishChunk_inv h
                  obtain ⟨ps, hsubs, hprops, hin3, hps, htr⟩ := ihl _ _ _ _ _ _ _ _ _ _ hg
                  have hle : sz.toInt ≤ bp := by
                    clear hps hsubs hprops hin3 hg h hin hf
                    generalize (4 : Int) = b0 at htr
                    induction ps generalizing b0 with
                    | nil => exact htr.2 ▸ htr.1
                    | cons q ps ih => obtain ⟨_, b, _, h2⟩ := htr; exact ih b h2
                  have := hsk hle
                  subst this
                  simp only [List.nil_append] at hsubs hprops hin hin2
                  subst hsubs hprops
                  refine ⟨_, ?_, Loose.lst ps hh hps htr hp⟩
                  rw [hin, hin3, hin2]
                  simp
              · simp at h
              · simp at h
            · simp [deriveSuccess, finishChunk_false] at h
          · simp at h
          · simp at h
    · intro ty size subs bp s subs' bp' s' h
      unfold readGroupSubChunks at h
      by_cases hlt : bp < size
      · rw [if_pos hlt, M.bind_apply] at h
        split at h
        · rename_i a s1 hc
          cases a with
          | none => simp at h
          | some c =>
            simp only [M.bind_apply] at h
            obtain ⟨w, hw, hlo⟩ := ihc _ _ _ _ hc
            cases hi : incrementChunkSize e bp c.size with
            | ub u => simp [hi] at h
            | loop => simp [hi, M.ofOut] at h
            | val b =>
              simp only [hi, M.ofOut_val] at h
              obtain ⟨ps, hsubs, hin, hps, htr⟩ := ihg _ _ _ _ _ _ _ _ h
              refine ⟨(w, c) :: ps, by simp [hsubs], ?_, ?_, ?_⟩
              · rw [hw, hin]; simp [bites]
              · intro q hq
                rcases List.mem_cons.mp hq with rfl | hq
                · exact hlo
                · exact hps q hq
              · exact ⟨hlt, b, hi, htr⟩
        · simp at h
        · simp at h
      · rw [if_neg hlt] at h
        refine ⟨[], ?_, ?_, by simp, ?_⟩
        all_goals
          by_cases hgt : bp > size
          · simp [hgt, M.bind_apply, RS.emit] at h
            obtain ⟨⟨rfl, rfl⟩, rfl⟩ := h
            simp [bites, Trace]
            try omega
          · simp [hgt] at h
            obtain ⟨⟨rfl, rfl⟩, rfl⟩ := h
            simp [bites, Trace]
            try omega
    · intro ty size subs props bp s subs' props' bp' s' h
      unfold readListSubChunks at h
      by_cases hlt : bp < size
      · rw [if_pos hlt, M.bind_apply] at h
        split at h
        · rename_i a s1 hc
          cases a with
          | none => simp at h
          | some c =>
            simp only [M.bind_apply] at h
            obtain ⟨w, hw, hlo⟩ := ihc _ _ _ _ hc
            cases hi : incrementChunkSize e bp c.size with
            | ub u => simp [hi] at h
            | loop => simp [hi, M.ofOut] at h
            | val b =>
              simp only [hi, M.ofOut_val] at h
              by_cases hp : c.id = idPROP
              · rw [if_pos hp] at h
                obtain ⟨ps, hsubs, hprops, hin, hps, htr⟩ := ihl _ _ _ _ _ _ _ _ _ _ h
                refine ⟨(w, c) :: ps, by simp [hsubs, hp], by simp [hprops, hp], ?_, ?_, ?_⟩
                · rw [hw, hin]; simp [bites]
                · intro q hq
                  rcases List.mem_cons.mp hq with rfl | hq
                  · exact hlo
                  · exact hps q hq
                · exact ⟨hlt, b, hi, htr⟩
              · rw [if_neg hp] at h
                obtain ⟨ps, hsubs, hprops, hin, hps, htr⟩ := ihl _ _ _ _ _ _ _ _ _ _ h
                refine ⟨(w, c) :: ps, by simp [hsubs, hp], by simp [hprops, hp], ?_, ?_, ?_⟩
                · rw [hw, hin]; simp [bites]
                · intro q hq
                  rcases List.mem_cons.mp hq with rfl | hq
                  · exact hlo
                  · exact hps q hq
                · exact ⟨hlt, b, hi, htr⟩
        · simp at h
        · simp at h
      · rw [if_neg hlt] at h
        refine ⟨[], ?_, ?_, ?_, by simp, ?_⟩
        all_goals
          by_cases hgt : bp > size
          · simp [hgt, M.bind_apply, RS.emit] at h
            obtain ⟨⟨rfl, rfl, rfl⟩, rfl⟩ := h
            simp [bites, Trace]
            try omega
          · simp [hgt] at h
            obtain ⟨⟨rfl, rfl, rfl⟩, rfl⟩ := h
            simp [bites, Trace]
            try omega

end Iff
