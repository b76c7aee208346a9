import Verif.Proofs.ReadExtend
import Verif.Proofs.ReadShape
/-
  Inputs on which reading with the default registry has no undefined behaviour.
-/
namespace Iff
open Spec

theorem Spec.NoNegativeGroups.right {a b : List Byte} (h : NoNegativeGroups (a ++ b)) :
    NoNegativeGroups b := by
  intro pre id x post hid hb
  exact h (a ++ pre) id x post hid (by rw [hb]; simp)

theorem Spec.NoNegativeGroups.left {a b : List Byte} (h : NoNegativeGroups (a ++ b)) :
    NoNegativeGroups a := by
  intro pre id x post hid hb
  exact h pre id x (post ++ b) hid (by rw [hb]; simp)

theorem toInt_nonneg_of_byte {sz : BitVec 32} (h : (sz.extractLsb' 24 8).toNat < 128) :
    0 ≤ sz.toInt := by
  rw [BitVec.toInt_eq_toNat_cond]
  have h1 : (sz.extractLsb' 24 8).toNat = sz.toNat / 16777216 % 256 := by
    simp [BitVec.extractLsb'_toNat, Nat.shiftRight_eq_div_pow]
  have := sz.isLt
  split <;> omega

/-- In a tame input, group sizes are not negative. -/
theorem Spec.NoNegativeGroups.size {id sz : BitVec 32} {rest : List Byte}
    (h : NoNegativeGroups (bytes32 id ++ bytes32 sz ++ rest))
    (hid : id = idFORM ∨ id = idCAT ∨ id = idLIST ∨ id = idPROP) : 0 ≤ sz.toInt := by
  apply toInt_nonneg_of_byte
  refine h [] id _ (sz.extractLsb' 16 8 :: sz.extractLsb' 8 8 :: sz.extractLsb' 0 8 :: rest) hid ?_
  rw [be4_eq]
  simp [bytes32]

theorem default_group {ft id : ID} {h : Handler} (hh : findChunkType defaultRegistry ft id = h)
    (hk : h = .form ∨ h = .cat ∨ h = .prop) :
    id = idFORM ∨ id = idCAT ∨ id = idPROP := by
  rw [findChunkType_default] at hh
  split at hh
  · simp [*]
  · split at hh
    · simp [*]
    · split at hh
      · subst hh; simp at hk
      · split at hh
        · simp [*]
        · subst hh; simp at hk

theorem default_list {ft id : ID} (hh : findChunkType defaultRegistry ft id = .list) :
    id = idLIST := by
  rw [findChunkType_default] at hh
  split at hh
  · simp at hh
  · split at hh
    · simp at hh
    · split at hh
      · assumption
      · split at hh <;> simp at hh

/-- The counted bytes are at most the consumed bytes. -/
theorem trace_bound {e : Env} (he : 32 ≤ e.sizeBits) {size : Int} :
    ∀ (ps : List Bite) (bp bp' : Int), 0 ≤ bp → bp + ((bites ps).length : Int) < 2147483648 →
      (∀ q ∈ ps, 0 ≤ q.2.size ∧ 8 + q.2.size + q.2.size % 2 ≤ (q.1.length : Int)) →
      Trace e size bp (ps.map fun q => q.2.size) bp' →
      0 ≤ bp' ∧ bp' ≤ bp + ((bites ps).length : Int)
  | [], bp, bp', h0, _, _, ht => by
    obtain ⟨_, rfl⟩ := ht
    exact ⟨h0, by omega⟩
  | q :: ps, bp, bp', h0, hl, hq, ht => by
    obtain ⟨_, b, hb, ht⟩ := ht
    have h1 := hq q List.mem_cons_self
    rw [bites_cons, List.length_append] at hl ⊢
    rw [incrementChunkSize_ok e he h0 h1.1 (by omega)] at hb
    cases hb
    have := trace_bound he ps _ bp' (by omega) (by omega)
      (fun q h => hq q (List.mem_cons_of_mem _ h)) ht
    omega

theorem Spec.NoNegativeGroups.bite {ps : List Bite} {q : Bite} (h : NoNegativeGroups (bites ps))
    (hq : q ∈ ps) : NoNegativeGroups q.1 := by
  obtain ⟨a, b, hab⟩ := mem_bites hq
  rw [← hab] at h
  exact h.left.right

theorem bites_le {ps : List Bite} {q : Bite} (hq : q ∈ ps) : q.1.length ≤ (bites ps).length :=
  (mem_bites hq).length_le

/-- In a tame input shorter than 2 GiB, a chunk is at least as long as it declares. -/
theorem Loose.span_le {e : Env} (he : 32 ≤ e.sizeBits) {ft : ID} {w : List Byte} {c : Chunk}
    (h : Loose e defaultRegistry ft w c) : NoNegativeGroups w → w.length < 2147483648 →
    0 ≤ c.size ∧ 8 + c.size + c.size % 2 ≤ (w.length : Int) := by
  induction h with
  | @raw ft id data p pn sz hh hs hp hm =>
    intro hn hl
    have := hp.length
    simp only [Chunk.size, List.length_append, bytes32_length] at hl ⊢
    omega
  | @ext ft id vals body p pn fields chk sz hh =>
    exfalso
    rw [findChunkType_default] at hh
    repeat' split at hh
    all_goals simp at hh
  | @grp ft id ty p pn h bp sz ps hh hk hps htr hp ih =>
    intro hn hl
    have hpl := hp.length
    have h0 : 0 ≤ sz.toInt := by
      rw [List.append_assoc] at hn
      refine hn.size ?_
      rcases default_group hh hk with h | h | h <;> simp [h]
    have hb : NoNegativeGroups (bites ps) := by
      have := hn.left.right.right
      exact this
    have hle := trace_le htr
    simp only [List.length_append, bytes32_length] at hl
    have h2 := trace_bound he ps 4 bp (by omega) (by omega) (fun q hq =>
      ih q hq (hb.bite hq) (by have := bites_le hq; omega)) htr
    simp only [Chunk.size, List.length_append, bytes32_length]
    omega
  | @lst ft id ty p pn bp sz ps hh hps htr hp ih =>
    intro hn hl
    have hpl := hp.length
    have h0 : 0 ≤ sz.toInt := by
      rw [List.append_assoc] at hn
      refine hn.size ?_
      simp [default_list hh]
    have hb : NoNegativeGroups (bites ps) := by
      have := hn.left.right.right
      exact this
    have hle := trace_le htr
    simp only [List.length_append, bytes32_length] at hl
    have h2 := trace_bound he ps 4 bp (by omega) (by omega) (fun q hq =>
      ih q hq (hb.bite hq) (by have := bites_le hq; omega)) htr
    simp only [Chunk.size, List.length_append, bytes32_length]
    omega

/-- No undefined behaviour. -/
def Defined {α : Type} (o : Out α) : Prop := ∀ u, o ≠ .ub u

theorem Defined.val {α : Type} (a : α) : Defined (Out.val a) := fun _ => by simp

theorem defined_bind {σ α β : Type} {m : M σ α} {f : α → M σ β} {s : σ} (h : Defined (m s))
    (hf : ∀ a s', m s = .val (a, s') → Defined (f a s')) : Defined ((m >>= f) s) := by
  rw [M.bind_apply]
  cases hm : m s with
  | val a => exact hf a.1 a.2 hm
  | ub u => rw [hm] at h; exact absurd rfl (h u)
  | loop => simp [Defined]

theorem defined_readField (e : Env) (k : FieldKind) (id : ID) (size : Int) (a : String) (v : Val)
    (bp : Int) (s : RS) : Defined (readField e k id size a v bp s) := by
  unfold readField
  split
  · exact Defined.val _
  · refine defined_bind ?_ (fun x s' _ => by cases x <;> exact Defined.val _)
    intro u hu
    have hu' := (fine_readVal e k id a s).2 u hu
    subst hu'
    obtain ⟨inp, log⟩ := s
    cases k <;> simp only [readVal, readWord_eq, readLong_eq, readId_eq, M.bind_apply] at hu
    case ubyte =>
      cases inp with
      | nil => simp [readUByte, M.bind_apply, fgetc, RS.emit] at hu
      | cons b bs => simp [readUByte, M.bind_apply, fgetc] at hu
    case uword | word =>
      by_cases hl : inp.length < 2
      · rw [readUWord_short _ _ _ _ hl] at hu; simp at hu
      · obtain ⟨a, b, rest, rfl⟩ := cons2_of_length (by omega : 2 ≤ inp.length)
        rw [readUWord_ok] at hu; simp at hu
    all_goals
      by_cases hl : inp.length < 4
      · rw [readULong_short _ _ _ _ hl] at hu; simp at hu
      · obtain ⟨a, b, c, d, rest, rfl⟩ := cons4_of_length (by omega : 4 ≤ inp.length)
        rw [readULong_ok] at hu; simp at hu

theorem defined_finish (e : Env) {size bp : Int} {ok : Bool} (c : Chunk) (s : RS)
    (h : ok = true → size ≤ bp) : Defined (finishChunk e size ok c bp s) := by
  cases ok with
  | false => rw [finishChunk_false]; exact Defined.val _
  | true =>
    rw [finishChunk_done e c (h rfl)]
    obtain ⟨b, s', hp⟩ := readPaddingByte_cases size c.id s
    rw [hp]
    cases b <;> exact Defined.val _

theorem read_defined {e : Env} (he : e.Sane) : ∀ n : Nat,
    (∀ ft s, NoNegativeGroups s.inp → s.inp.length < 2147483648 →
      Defined (readChunk e defaultRegistry n ft s)) ∧
    (∀ ty size subs bp s, NoNegativeGroups s.inp → 0 ≤ bp →
      bp + (s.inp.length : Int) < 2147483648 →
      Defined (readGroupSubChunks e defaultRegistry n ty size subs bp s)) ∧
    (∀ ty size subs props bp s, NoNegativeGroups s.inp → 0 ≤ bp →
      bp + (s.inp.length : Int) < 2147483648 →
      Defined (readListSubChunks e defaultRegistry n ty size subs props bp s)) := by
  intro n
  induction n with
  | zero =>
    refine ⟨?_, ?_, ?_⟩
    · intro ft s _ _ u; simp [readChunk]
    · intro ty size subs bp s _ _ _ u; simp [readGroupSubChunks]
    · intro ty size subs props bp s _ _ _ u; simp [readListSubChunks]
  | succ n ih =>
    obtain ⟨ihc, ihg, ihl⟩ := ih
    have step : ∀ {ty s c s' bp}, readChunk e defaultRegistry n ty s = .val (some c, s') →
        NoNegativeGroups s.inp → (0 : Int) ≤ bp → bp + (s.inp.length : Int) < 2147483648 →
        NoNegativeGroups s'.inp ∧ ∃ b, incrementChunkSize e bp c.size = .val b ∧ 0 ≤ b ∧
          b + (s'.inp.length : Int) < 2147483648 := by
      intro ty s c s' bp h hn h0 hb
      obtain ⟨w, hw, hl⟩ := (read_loose he n).1 _ _ _ _ h
      rw [hw] at hn hb
      rw [List.length_append] at hb
      have h2 := hl.span_le he.wide hn.left (by omega)
      refine ⟨hn.right, _, incrementChunkSize_ok e he.wide h0 h2.1 (by omega), by omega, by omega⟩
    refine ⟨?_, ?_, ?_⟩
    · intro ft s hn hlen
      by_cases h8 : s.inp.length < 8
      · obtain ⟨log', h⟩ := readChunk_short e defaultRegistry n ft s h8
        rw [h]; exact Defined.val _
      · obtain ⟨inp, log⟩ := s
        obtain ⟨id, sz, rest, rfl⟩ := split_header (by simpa using h8 : 8 ≤ inp.length)
        rw [readChunk_header]
        have hrest : rest.length + 8 < 2147483648 := by
          simp only [List.length_append, bytes32_length] at hlen; omega
        have hnr : NoNegativeGroups rest := hn.right
        generalize hh : findChunkType defaultRegistry ft id = hd
        rcases Handler.cases' hd with rfl | hk | rfl | ⟨fields, chk, rfl⟩
        · rw [readBody_raw]
          split
          · rename_i hm
            obtain ⟨h0, hts⟩ := malloc_nonneg he (toInt_inInt sz) hm
            have hadd : addInt 0 sz.toInt = .val sz.toInt := by
              have := addInt_ok (x := 0) (y := sz.toInt) (by simpa using toInt_inInt sz)
              simpa using this
            refine defined_bind ?_ (fun a s' ha => ?_)
            · unfold readRawChunk
              refine defined_bind (Defined.val _) (fun a s' _ => ?_)
              split
              · exact defined_bind (Defined.val _) (fun _ _ _ => Defined.val _)
              · rw [hadd]; exact Defined.val _
            · obtain ⟨ok, data, bp⟩ := a
              refine defined_finish e _ _ (fun hok => ?_)
              subst hok
              unfold readRawChunk at ha
              simp only [M.bind_apply, fread] at ha
              split at ha
              · simp [M.bind_apply, RS.emit] at ha
              · rw [hadd] at ha
                simp [M.bind_apply] at ha
                omega
          · exact Defined.val _
        · rw [readBody_grp _ _ _ _ _ hk]
          refine defined_bind (defined_readField _ _ _ _ _ _ _ _) (fun a s' ha => ?_)
          obtain ⟨st, v, bp⟩ := a
          rcases readField_id_inv he.wide ha with ⟨rfl, rfl, ty, rfl, hin⟩ | rfl
          · simp only at hin
            rw [hin] at hnr hrest
            rw [List.length_append, bytes32_length] at hrest
            refine defined_bind (ihg _ _ _ _ _ hnr.right (by omega) (by omega)) (fun a s2 ha2 => ?_)
            obtain ⟨ok, subs, bp⟩ := a
            refine defined_finish e _ _ (fun hok => ?_)
            subst hok
            obtain ⟨ps, _, _, _, ht⟩ := (read_loose he n).2.1 _ _ _ _ _ _ _ _ ha2
            exact trace_le ht
          · exact defined_finish e _ _ (fun hok => by simp [deriveSuccess] at hok)
        · rw [readBody_lst]
          refine defined_bind (defined_readField _ _ _ _ _ _ _ _) (fun a s' ha => ?_)
          obtain ⟨st, v, bp⟩ := a
          rcases readField_id_inv he.wide ha with ⟨rfl, rfl, ty, rfl, hin⟩ | rfl
          · simp only at hin
            rw [hin] at hnr hrest
            rw [List.length_append, bytes32_length] at hrest
            refine defined_bind (ihl _ _ _ _ _ _ hnr.right (by omega) (by omega)) (fun a s2 ha2 => ?_)
            obtain ⟨ok, subs, props, bp⟩ := a
            simp only
            split
            · rename_i hok
              subst hok
              refine defined_finish e _ _ (fun _ => ?_)
              obtain ⟨ps, _, _, _, _, ht⟩ := (read_loose he n).2.2 _ _ _ _ _ _ _ _ _ _ ha2
              exact trace_le ht
            · exact defined_bind (Defined.val _) (fun _ _ _ => Defined.val _)
          · exact defined_finish e _ _ (fun hok => by simp [deriveSuccess] at hok)
        · exfalso
          rw [findChunkType_default] at hh
          repeat' split at hh
          all_goals simp at hh
    · intro ty size subs bp s hn h0 hb
      unfold readGroupSubChunks
      split
      · refine defined_bind (ihc _ _ hn (by omega)) (fun a s' ha => ?_)
        cases a with
        | none => exact Defined.val _
        | some c =>
          obtain ⟨h1, b, h2, h3, h4⟩ := step ha hn h0 hb
          simp only [h2]
          exact ihg _ _ _ _ _ h1 h3 h4
      · split
        · exact defined_bind (Defined.val _) (fun _ _ _ => Defined.val _)
        · exact Defined.val _
    · intro ty size subs props bp s hn h0 hb
      unfold readListSubChunks
      split
      · refine defined_bind (ihc _ _ hn (by omega)) (fun a s' ha => ?_)
        cases a with
        | none => exact Defined.val _
        | some c =>
          obtain ⟨h1, b, h2, h3, h4⟩ := step ha hn h0 hb
          simp only [h2]
          refine defined_bind (Defined.val _) (fun b' s'' hb' => ?_)
          simp at hb'
          obtain ⟨rfl, rfl⟩ := hb'
          split <;> exact ihl _ _ _ _ _ _ h1 h3 h4
      · split
        · exact defined_bind (Defined.val _) (fun _ _ _ => Defined.val _)
        · exact Defined.val _

end Iff
