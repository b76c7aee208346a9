import Verif.Spec.Platform
import Verif.Proofs.ReadLoose
import Verif.Model.Write
import Verif.Model.Compare
/-
  The environment plays no role in reading, writing and comparing, apart from the allocator and the
  streams.
-/
namespace Iff
open Spec

theorem size_eq_width (k : FieldKind) : k.size = width k := by cases k <;> rfl

/-! ### Integers -/

theorem readULong_env (e e' : Env) (id : ID) (attr : String) :
    readULong e id attr = readULong e' id attr := by
  funext s
  obtain ⟨inp, log⟩ := s
  by_cases h : inp.length < 4
  · rw [readULong_short _ _ _ _ h, readULong_short _ _ _ _ h]
  · obtain ⟨a, b, c, d, rest, rfl⟩ := cons4_of_length (by omega : 4 ≤ inp.length)
    rw [readULong_ok, readULong_ok]

theorem readUWord_env (e e' : Env) (id : ID) (attr : String) :
    readUWord e id attr = readUWord e' id attr := by
  funext s
  obtain ⟨inp, log⟩ := s
  by_cases h : inp.length < 2
  · rw [readUWord_short _ _ _ _ h, readUWord_short _ _ _ _ h]
  · obtain ⟨a, b, rest, rfl⟩ := cons2_of_length (by omega : 2 ≤ inp.length)
    rw [readUWord_ok, readUWord_ok]

theorem readVal_env (e e' : Env) (k : FieldKind) (id : ID) (attr : String) :
    readVal e k id attr = readVal e' k id attr := by
  cases k <;> simp only [readVal, readWord_eq, readLong_eq, readId_eq, readULong_env e e',
    readUWord_env e e']

theorem writeULong_env (e e' : Env) (v : BitVec 32) (id : ID) (attr : String) :
    writeULong e v id attr = writeULong e' v id attr := by
  funext s
  by_cases h : 4 ≤ s.room
  · rw [writeULong_full _ _ _ _ _ h, writeULong_full _ _ _ _ _ h]
  · rw [writeULong_short _ _ _ _ _ (by omega), writeULong_short _ _ _ _ _ (by omega)]

theorem writeUWord_env (e e' : Env) (v : BitVec 16) (id : ID) (attr : String) :
    writeUWord e v id attr = writeUWord e' v id attr := by
  funext s
  by_cases h : 2 ≤ s.room
  · rw [writeUWord_full _ _ _ _ _ h, writeUWord_full _ _ _ _ _ h]
  · rw [writeUWord_short _ _ _ _ _ (by omega), writeUWord_short _ _ _ _ _ (by omega)]

theorem writeVal_env (e e' : Env) (v : Val) (id : ID) (attr : String) :
    writeVal e v id attr = writeVal e' v id attr := by
  cases v with
  | ubyte v => rfl
  | uword v => exact writeUWord_env e e' v id attr
  | word v => exact writeUWord_env e e' v id attr
  | ulong v => exact writeULong_env e e' v id attr
  | long v => exact writeULong_env e e' v id attr
  | id v => exact writeULong_env e e' v id attr

/-! ### Sizes -/

/-- The comparison in `size_t`, in terms of the sizes. -/
theorem fits_closed (e : Env) (h : 32 ≤ e.sizeBits) {n : Nat} {size bp : Int} (hs : inInt size)
    (h0 : 0 ≤ bp) (h1 : bp + n < 2147483648) :
    fieldDoesNotFitInChunk e n size bp = decide ((n : Int) ≤ size ∧ size < bp + n) := by
  unfold inInt at hs
  have hp := pow_ge e h
  unfold fieldDoesNotFitInChunk
  rw [toSize_nonneg e h h0 (by omega)]
  rcases Int.lt_or_le size 0 with hneg | hpos
  · have h2 := toSize_neg e h hneg (by omega)
    rw [h2]
    have h3 : toSize e (((2 ^ e.sizeBits : Nat) : Int) + size - n) =
        (((2 ^ e.sizeBits : Nat) : Int) + size - n).toNat := by
      unfold toSize
      rw [Int.emod_eq_of_lt (by omega) (by omega)]
    rw [h3]
    simp only [gt_iff_lt, decide_eq_decide]
    omega
  · rw [toSize_nonneg e h hpos (by omega)]
    have hc : ((size.toNat : Nat) : Int) = size := by omega
    rw [hc]
    rcases Int.lt_or_le size n with hlt | hle
    · have h3 := toSize_neg e h (x := size - n) (by omega) (by omega)
      simp only [gt_iff_lt, decide_eq_decide]
      omega
    · rw [toSize_nonneg e h (by omega) (by omega)]
      simp only [gt_iff_lt, decide_eq_decide]
      omega

theorem fits_env {e e' : Env} (he : e.Sane) (he' : e'.Sane) {n : Nat} {size bp : Int}
    (hs : inInt size) (h0 : 0 ≤ bp) (h1 : bp + n < 2147483648) :
    fieldDoesNotFitInChunk e n size bp = fieldDoesNotFitInChunk e' n size bp := by
  rw [fits_closed e he.wide hs h0 h1, fits_closed e' he'.wide hs h0 h1]

theorem increase_env {e e' : Env} (he : e.Sane) (he' : e'.Sane) (bp : Int) (n : Nat) :
    increaseBytesProcessed e bp n = increaseBytesProcessed e' bp n := by
  unfold increaseBytesProcessed
  rw [toSize_add_toSize_left, toSize_add_toSize_left, wrapInt_toSize e he.wide,
    wrapInt_toSize e' he'.wide]

theorem incrementChunkSize_env {e e' : Env} (he : e.Sane) (he' : e'.Sane) :
    incrementChunkSize e = incrementChunkSize e' := by
  funext a b
  rw [incrementChunkSize_eq e he.wide, incrementChunkSize_eq e' he'.wide]

theorem toSize_env {e e' : Env} (he : e.Sane) (he' : e'.Sane) {x : Int} (h0 : 0 ≤ x)
    (h1 : inInt x) : toSize e x = toSize e' x := by
  unfold inInt at h1
  rw [toSize_nonneg e he.wide h0 (by omega), toSize_nonneg e' he'.wide h0 (by omega)]

theorem toSize_huge {e : Env} (he : e.Sane) {x : Int} (h0 : x < 0) (h1 : inInt x) :
    2 ^ (e.sizeBits - 1) ≤ toSize e x ∧ 2147483648 ≤ toSize e x := by
  unfold inInt at h1
  have h2 := toSize_neg e he.wide h0 (by omega)
  have hp := pow_ge e he.wide
  have h3 : 2 ^ e.sizeBits = 2 * 2 ^ (e.sizeBits - 1) := by
    obtain ⟨k, hk⟩ : ∃ k, e.sizeBits = k + 1 := ⟨e.sizeBits - 1, by have := he.wide; omega⟩
    rw [hk, Nat.pow_succ, Nat.add_sub_cancel, Nat.mul_comm]
  omega

/-! ### Reading -/

theorem readField_env {e e' : Env} (he : e.Sane) (he' : e'.Sane) (k : FieldKind) (id : ID)
    {size : Int} (attr : String) (cur : Val) {bp : Int} (hs : inInt size) (h0 : 0 ≤ bp)
    (h1 : bp + k.size < 2147483648) :
    readField e k id size attr cur bp = readField e' k id size attr cur bp := by
  unfold readField
  rw [fits_env he he' hs h0 h1, readVal_env e e', increase_env he he']

/-- What is known of the status `MORE`. -/
theorem readField_more {e : Env} (he : e.Sane) {k : FieldKind} {id : ID}
    {size : Int} {attr : String} {cur v : Val} {bp bp' : Int} {s s' : RS} (h0 : 0 ≤ bp)
    (h1 : bp + k.size < 2147483648)
    (h : readField e k id size attr cur bp s = .val ((.more, v, bp'), s')) : bp' = bp + k.size := by
  unfold readField at h
  rw [increaseBytesProcessed_ok e he.wide (by unfold inInt; omega)] at h
  split at h
  · simp at h
  · rw [M.bind_apply] at h
    cases hr : readVal e k id attr s with
    | val a =>
      rw [hr] at h
      obtain ⟨o, s1⟩ := a
      cases o with
      | none => simp at h
      | some v => simp at h; exact h.1.2.symm
    | ub u => rw [hr] at h; simp at h
    | loop => rw [hr] at h; simp at h

theorem readExtFields_env {e e' : Env} (he : e.Sane) (he' : e'.Sane) (id : ID) {size : Int}
    (hs : inInt size) : ∀ (fields : List Field) (cur done : List Val) (bp : Int), 0 ≤ bp →
    bp + ((fields.map fun f => width f.kind).sum : Nat) < 2147483648 →
    readExtFields e id size fields cur done bp = readExtFields e' id size fields cur done bp
  | [], _, _, _, _, _ => by simp only [readExtFields]
  | f :: fs, [], _, _, _, _ => by simp only [readExtFields]
  | f :: fs, v :: vs, done, bp, h0, h1 => by
    rw [List.map_cons, List.sum_cons, ← size_eq_width] at h1
    funext s
    simp only [readExtFields]
    rw [readField_env he he' f.kind id f.name v hs h0 (by omega), M.bind_apply, M.bind_apply]
    cases hr : readField e' f.kind id size f.name v bp s with
    | val a =>
      obtain ⟨⟨st, v', bp'⟩, s1⟩ := a
      cases st with
      | more =>
        obtain rfl := readField_more he' h0 (by omega) hr
        exact congrFun (readExtFields_env he he' id hs fs vs _ (bp + f.kind.size) (by omega) (by omega)) s1
      | failure => rfl
      | last => rfl
    | ub u => rfl
    | loop => rfl

theorem finishChunk_env {e e' : Env} (ha : Agree e e') :
    finishChunk e = finishChunk e' := by
  unfold finishChunk skipUnknownBytes fseekCur
  rw [ha.streams]

theorem readRaw_env {e e' : Env} (he : e.Sane) (he' : e'.Sane) (ha : Agree e e') (r : Registry)
    (n : Nat) (id : ID) {size : Int} (hs : inInt size) :
    readBody e r n .raw id size = readBody e' r n .raw id size := by
  rw [readBody_raw, readBody_raw]
  rcases Int.lt_or_le size 0 with h | h
  · rw [if_neg (by rw [he.halfSpace _ (toSize_huge he h hs).1]; simp),
      if_neg (by rw [he'.halfSpace _ (toSize_huge he' h hs).1]; simp)]
  · have h1 : toSize e' size < 2147483648 := by
      unfold inInt at hs
      rw [toSize_nonneg e' he'.wide h (by omega)]; omega
    unfold readRawChunk
    rw [toSize_env he he' h hs, ha.memory _ h1, finishChunk_env ha]

theorem read_env {e e' : Env} (he : e.Sane) (he' : e'.Sane) (ha : Agree e e') {r : Registry}
    (hr : ShortFields r) : ∀ n,
    (readChunk e r n = readChunk e' r n) ∧
    (readGroupSubChunks e r n = readGroupSubChunks e' r n) ∧
    (readListSubChunks e r n = readListSubChunks e' r n)
  | 0 => by
    refine ⟨?_, ?_, ?_⟩
    · funext ft; simp only [readChunk]
    · funext ty size subs bp; simp only [readGroupSubChunks]
    · funext ty size subs props bp; simp only [readListSubChunks]
  | n + 1 => by
    obtain ⟨h1, h2, h3⟩ := read_env he he' ha hr n
    have hb : ∀ ft id (sz : BitVec 32), readBody e r n (findChunkType r ft id) id sz.toInt =
        readBody e' r n (findChunkType r ft id) id sz.toInt := by
      intro ft id sz
      have hs := toInt_inInt sz
      generalize sz.toInt = size at hs
      cases hh : findChunkType r ft id with
      | raw => exact readRaw_env he he' ha r n id hs
      | form =>
        rw [readBody_grp _ _ _ _ _ (by simp), readBody_grp _ _ _ _ _ (by simp),
          readField_env he he' _ _ _ _ hs (by omega) (by decide), h2, finishChunk_env ha]
      | cat =>
        rw [readBody_grp _ _ _ _ _ (by simp), readBody_grp _ _ _ _ _ (by simp),
          readField_env he he' _ _ _ _ hs (by omega) (by decide), h2, finishChunk_env ha]
      | prop =>
        rw [readBody_grp _ _ _ _ _ (by simp), readBody_grp _ _ _ _ _ (by simp),
          readField_env he he' _ _ _ _ hs (by omega) (by decide), h2, finishChunk_env ha]
      | list =>
        rw [readBody_lst, readBody_lst,
          readField_env he he' _ _ _ _ hs (by omega) (by decide), h3, finishChunk_env ha]
      | ext fields chk =>
        rw [readBody_ext, readBody_ext, readExtFields_env he he' id hs _ _ _ _ (by omega)
          (by have := hr ft id fields chk hh; omega), finishChunk_env ha]
    refine ⟨?_, ?_, ?_⟩
    · funext ft
      rw [readChunk_succ, readChunk_succ, readId_eq, readId_eq, readULong_env e e']
      simp only [readLong_eq, readULong_env e e', hb]
    · funext ty size subs bp
      simp only [readGroupSubChunks]
      rw [h1, h2, incrementChunkSize_env he he']
    · funext ty size subs props bp
      simp only [readListSubChunks]
      rw [h1, h3, incrementChunkSize_env he he']

theorem readFd_env {e e' : Env} (he : e.Sane) (he' : e'.Sane) (ha : Agree e e')
    (reg : Option Registry) (hr : ShortFields (selectChunkRegistry reg)) :
    readFd e reg = readFd e' reg := by
  funext s
  unfold readFd
  rw [(read_env he he' ha hr _).1]

/-! ### Writing -/

theorem writeField_env {e e' : Env} (he : e.Sane) (he' : e'.Sane) (v : Val) (id : ID)
    {size : Int} (attr : String) {bp : Int} (hs : inInt size) (h0 : 0 ≤ bp)
    (h1 : bp + v.kind.size < 2147483648) :
    writeField e v id size attr bp = writeField e' v id size attr bp := by
  unfold writeField
  rw [fits_env he he' hs h0 h1, writeVal_env e e', increase_env he he']

theorem writeField_more {e : Env} (he : e.Sane) {id : ID}
    {size : Int} {attr : String} {v : Val} {bp bp' : Int} {s s' : WS} (h0 : 0 ≤ bp)
    (h1 : bp + v.kind.size < 2147483648)
    (h : writeField e v id size attr bp s = .val ((.more, bp'), s')) : bp' = bp + v.kind.size := by
  unfold writeField at h
  rw [increaseBytesProcessed_ok e he.wide (by unfold inInt; omega)] at h
  split at h
  · simp at h
  · rw [M.bind_apply] at h
    cases hr : writeVal e v id attr s with
    | val a =>
      rw [hr] at h
      obtain ⟨o, s1⟩ := a
      cases o with
      | false => simp at h
      | true => simp at h; exact h.1.symm
    | ub u => rw [hr] at h; simp at h
    | loop => rw [hr] at h; simp at h

theorem writeExtFields_env {e e' : Env} (he : e.Sane) (he' : e'.Sane) (id : ID) {size : Int}
    (hs : inInt size) : ∀ (fields : List Field) (vals : List Val) (bp : Int), 0 ≤ bp →
    vals.map Val.kind = fields.map Field.kind →
    bp + ((fields.map fun f => width f.kind).sum : Nat) < 2147483648 →
    writeExtFields e id size fields vals bp = writeExtFields e' id size fields vals bp
  | [], _, _, _, _, _ => by simp only [writeExtFields]
  | f :: fs, [], _, _, _, _ => by simp only [writeExtFields]
  | f :: fs, v :: vs, bp, h0, hk, h1 => by
    rw [List.map_cons, List.map_cons, List.cons.injEq] at hk
    rw [List.map_cons, List.sum_cons, ← size_eq_width, ← hk.1] at h1
    funext s
    simp only [writeExtFields]
    rw [writeField_env he he' v id f.name hs h0 (by omega), M.bind_apply, M.bind_apply]
    cases hr : writeField e' v id size f.name bp s with
    | val a =>
      obtain ⟨⟨st, bp'⟩, s1⟩ := a
      cases st with
      | more =>
        obtain rfl := writeField_more he' h0 (by omega) hr
        exact congrFun (writeExtFields_env he he' id hs fs vs (bp + v.kind.size) (by omega) hk.2 (by omega)) s1
      | failure => rfl
      | last => rfl
    | ub u => rfl
    | loop => rfl

theorem writeRaw_env {e e' : Env} (he : e.Sane) (he' : e'.Sane) (id : ID) {size : Int}
    (hs : inInt size) {data : List Byte} (hd : data.length < 2147483648) (bp : Int) :
    writeRawChunk e id size data bp = writeRawChunk e' id size data bp := by
  unfold writeRawChunk
  rcases Int.lt_or_le size 0 with h | h
  · have h1 := (toSize_huge he h hs).2
    have h2 := (toSize_huge he' h hs).2
    rw [if_neg (by omega), if_neg (by omega)]
  · rw [toSize_env he he' h hs]

theorem writeChunkWith_env (e e' : Env) (c : Chunk) (f : M WS (Bool × Int)) :
    writeChunkWith e c f = writeChunkWith e' c f := by
  have h1 : writeId e c.id c.id "chunkId" = writeId e' c.id c.id "chunkId" :=
    writeULong_env e e' _ _ _
  have h2 : ∀ v, writeLong e v c.id "chunkSize" = writeLong e' v c.id "chunkSize" :=
    fun v => writeULong_env e e' v _ _
  unfold writeChunkWith
  rw [h1, h2]

theorem writeGroupWith_env {e e' : Env} (he : e.Sane) (he' : e'.Sane) (id : ID) {size : Int}
    (hs : inInt size) (ty : ID) (attr : String) (subs : Int → M WS (Bool × Int)) :
    writeGroupWith e id size ty attr subs 0 = writeGroupWith e' id size ty attr subs 0 := by
  unfold writeGroupWith
  rw [writeField_env he he' _ _ _ hs (by omega) (by simp [Val.kind, FieldKind.size])]

theorem Spec.Representable.sub {id : ID} {size : Int} {ty : ID} {subs : List Chunk}
    (h : Representable (.grp id size ty subs)) : ∀ c ∈ subs, Representable c :=
  fun _ hc d hd => h d (.grp hc hd)

theorem Spec.Representable.lsub {id : ID} {size : Int} {ty : ID} {subs props : List Chunk}
    (h : Representable (.lst id size ty subs props)) : ∀ c ∈ subs, Representable c :=
  fun _ hc d hd => h d (.sub hc hd)

theorem Spec.Representable.lprop {id : ID} {size : Int} {ty : ID} {subs props : List Chunk}
    (h : Representable (.lst id size ty subs props)) : ∀ c ∈ props, Representable c :=
  fun _ hc d hd => h d (.prop hc hd)

/-- The fields of a function table take less than 2 GiB. -/
def ShortHandler (h : Handler) : Prop :=
  ∀ fields chk, h = .ext fields chk → (fields.map fun f => width f.kind).sum < 2147483648

section
variable {e e' : Env} (he : e.Sane) (he' : e'.Sane) {r : Registry} (hr : ShortFields r)
include he he' hr

mutual

theorem writeFields_env : ∀ (c : Chunk) (h : Handler), Representable c → ShortHandler h →
    writeFields e r h c = writeFields e' r h c
  | .raw id size data, h, hc, hh => by
    have := hc _ .self
    cases h <;> simp only [writeFields]
    exact writeRaw_env he he' id this.1 (this.2 _ _ _ rfl) 0
  | .ext id size vals, h, hc, hh => by
    have := hc _ .self
    cases h with
    | ext fields chk =>
      simp only [writeFields]
      split
      · rename_i hk
        exact writeExtFields_env he he' id this.1 fields vals 0 (by omega) hk
          (by have := hh fields chk rfl; omega)
      · rfl
    | _ => simp only [writeFields]
  | .grp id size ty subs, h, hc, hh => by
    have : inInt size := (hc _ .self).1
    cases h <;> simp only [writeFields, writeGroupWith_env he he' id this,
      writeGroupSubChunks_env ty subs hc.sub]
  | .lst id size ty subs props, h, hc, hh => by
    have : inInt size := (hc _ .self).1
    cases h <;> simp only [writeFields, writeGroupWith_env he he' id this,
      writeGroupSubChunks_env ty subs hc.lsub, writeListPropChunks_env props hc.lprop]

theorem writeGroupSubChunks_env (ty : ID) : ∀ (cs : List Chunk), (∀ c ∈ cs, Representable c) →
    writeGroupSubChunks e r ty cs = writeGroupSubChunks e' r ty cs
  | [], _ => by funext bp; simp only [writeGroupSubChunks]
  | c :: cs, h => by
    funext bp
    simp only [writeGroupSubChunks]
    rw [writeFields_env c _ (h c List.mem_cons_self) (hr ty c.id), writeChunkWith_env e e',
      incrementChunkSize_env he he',
      writeGroupSubChunks_env ty cs fun d hd => h d (List.mem_cons_of_mem _ hd)]

theorem writeListPropChunks_env : ∀ (cs : List Chunk), (∀ c ∈ cs, Representable c) →
    writeListPropChunks e r cs = writeListPropChunks e' r cs
  | [], _ => by funext bp; simp only [writeListPropChunks]
  | c :: cs, h => by
    funext bp
    simp only [writeListPropChunks]
    rw [writeFields_env c _ (h c List.mem_cons_self) (hr 0 c.id), writeChunkWith_env e e',
      incrementChunkSize_env he he',
      writeListPropChunks_env cs fun d hd => h d (List.mem_cons_of_mem _ hd)]

end

theorem writeChunk_env (ft : ID) (c : Chunk) (hc : Representable c) :
    writeChunk e r ft c = writeChunk e' r ft c := by
  unfold writeChunk
  rw [writeFields_env he he' hr c _ hc (hr ft c.id), writeChunkWith_env e e']

end

/-! ### Comparing -/

theorem compareRaw_env {e e' : Env} (he : e.Sane) (he' : e'.Sane) {size : Int} (hs : inInt size)
    {data data2 : List Byte} (hd : data.length < 2147483648) :
    compareRawChunk e size data data2 = compareRawChunk e' size data data2 := by
  unfold compareRawChunk
  rcases Int.lt_or_le size 0 with h | h
  · have h1 := (toSize_huge he h hs).2
    have h2 := (toSize_huge he' h hs).2
    dsimp only
    rw [if_neg (by omega), if_neg (by omega)]
  · rw [toSize_env he he' h hs]

section
variable {e e' : Env} (he : e.Sane) (he' : e'.Sane) (r : Registry)
include he he'

mutual

theorem compareFields_env : ∀ (c : Chunk) (h : Handler), Representable c →
    compareFields e r h c = compareFields e' r h c
  | .raw id size data, h, hc => by
    have := hc _ .self
    funext d
    cases h <;> cases d <;> simp only [compareFields]
    exact compareRaw_env he he' this.1 (this.2 _ _ _ rfl)
  | .ext id size vals, h, hc => by
    funext d
    cases h <;> cases d <;> simp only [compareFields]
  | .grp id size ty subs, h, hc => by
    funext d
    cases h <;> simp only [compareFields, compareSubs_env ty subs hc.sub]
  | .lst id size ty subs props, h, hc => by
    funext d
    cases h <;> simp only [compareFields, compareSubs_env ty subs hc.lsub,
      compareProps_env props hc.lprop]

theorem compareSubs_env (ty : ID) : ∀ (cs : List Chunk), (∀ c ∈ cs, Representable c) →
    compareSubs e r ty cs = compareSubs e' r ty cs
  | [], _ => by funext ds; simp only [compareSubs]
  | c :: cs, h => by
    funext ds
    cases ds with
    | nil => simp only [compareSubs]
    | cons d ds =>
      simp only [compareSubs]
      rw [compareFields_env c _ (h c List.mem_cons_self),
        compareSubs_env ty cs fun d hd => h d (List.mem_cons_of_mem _ hd)]

theorem compareProps_env : ∀ (cs : List Chunk), (∀ c ∈ cs, Representable c) →
    compareProps e r cs = compareProps e' r cs
  | [], _ => by funext ds; simp only [compareProps]
  | c :: cs, h => by
    funext ds
    cases ds with
    | nil => simp only [compareProps]
    | cons d ds =>
      have hc := h c List.mem_cons_self
      have ht := compareProps_env cs fun d hd => h d (List.mem_cons_of_mem _ hd)
      cases c with
      | raw => simp only [compareProps]; rfl
      | ext => simp only [compareProps]; rfl
      | grp id size ty subs =>
        simp only [compareProps]
        rw [compareSubs_env ty subs hc.sub, ht]
      | lst id size ty subs props =>
        simp only [compareProps]
        rw [compareSubs_env ty subs hc.lsub, ht]

end

end

end Iff
