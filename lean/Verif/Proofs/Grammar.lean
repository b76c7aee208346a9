import Verif.Proofs.Check
import Verif.Proofs.ReadTame
import Verif.Proofs.ReadWrite
/-
  The IFF-85 grammar `Encodes` against what the reader consumes.
-/
namespace Iff
open Spec

theorem rawSizes_of_consistent {c : Chunk} (h : Consistent c) : RawSizes c := by
  intro id size data hw
  induction hw with
  | self => cases h; assumption
  | grp hm _ ih => cases h with | grp _ _ h => exact ih (h _ hm)
  | sub hm _ ih => cases h with | lst _ _ h _ => exact ih (h _ hm)
  | prop hm _ ih => cases h with | lst _ _ _ h => exact ih (h _ hm)

theorem propArrays_of_split {c : Chunk} (h : ListsSplit c) : PropArrays c := by
  intro id size ty subs props hw
  induction hw with
  | self => cases h; assumption
  | grp hm _ ih => cases h with | grp h => exact ih (h _ hm)
  | sub hm _ ih => cases h with | lst _ _ h _ => exact ih (h _ hm)
  | prop hm _ ih => cases h with | lst _ _ _ h => exact ih (h _ hm)

/-- What remains of a list when it is split in two. -/
theorem encodeAll_split (p : Chunk → Bool) (cs : List Chunk) :
    (encodeAll (cs.filter p)).length + (encodeAll (cs.filter fun c => !p c)).length =
      (encodeAll cs).length := by
  induction cs with
  | nil => rfl
  | cons c cs ih =>
    cases hp : p c <;> simp [hp, encodeAll] <;> omega

theorem encodeAll_prop_split (cs : List Chunk) :
    (encodeAll (cs.filter fun c => decide (c.id = idPROP))).length +
      (encodeAll (cs.filter fun c => decide (c.id ≠ idPROP))).length = (encodeAll cs).length := by
  have := encodeAll_split (fun c => decide (c.id = idPROP)) cs
  simpa using this

theorem encodeAll_map_length {ms : List (List Byte × Chunk)}
    (h : ∀ m ∈ ms, m.1.length = (encode m.2).length) :
    (encodeAll (ms.map Prod.snd)).length = (ms.flatMap Prod.fst).length := by
  induction ms with
  | nil => rfl
  | cons m ms ih =>
    have h1 := h m List.mem_cons_self
    have h2 := ih fun m hm => h m (List.mem_cons_of_mem _ hm)
    simp only [List.map_cons, encodeAll, List.flatMap_cons, List.length_append]
    omega

theorem encodeAll_map_eq {ms : List (List Byte × Chunk)} (h : ∀ m ∈ ms, m.1 = encode m.2) :
    encodeAll (ms.map Prod.snd) = ms.flatMap Prod.fst := by
  induction ms with
  | nil => rfl
  | cons m ms ih =>
    simp only [List.map_cons, encodeAll, List.flatMap_cons]
    rw [ih fun m hm => h m (List.mem_cons_of_mem _ hm), ← h m List.mem_cons_self]

theorem split_props {ps os : List (List Byte × Chunk)} (hp : ∀ m ∈ ps, m.2.id = idPROP)
    (ho : ∀ m ∈ os, m.2.id ≠ idPROP) :
    (((ps ++ os).map Prod.snd).filter fun c => decide (c.id = idPROP)) = ps.map Prod.snd ∧
    (((ps ++ os).map Prod.snd).filter fun c => decide (c.id ≠ idPROP)) = os.map Prod.snd := by
  simp only [List.map_append, List.filter_append]
  have h1 : (ps.map Prod.snd).filter (fun c => decide (c.id = idPROP)) = ps.map Prod.snd := by
    rw [List.filter_eq_self]; intro c hc
    obtain ⟨m, hm, rfl⟩ := List.mem_map.mp hc; simpa using hp m hm
  have h2 : (os.map Prod.snd).filter (fun c => decide (c.id = idPROP)) = [] := by
    rw [List.filter_eq_nil_iff]; intro c hc
    obtain ⟨m, hm, rfl⟩ := List.mem_map.mp hc; simpa using ho m hm
  have h3 : (ps.map Prod.snd).filter (fun c => decide (c.id ≠ idPROP)) = [] := by
    rw [List.filter_eq_nil_iff]; intro c hc
    obtain ⟨m, hm, rfl⟩ := List.mem_map.mp hc; simpa using hp m hm
  have h4 : (os.map Prod.snd).filter (fun c => decide (c.id ≠ idPROP)) = os.map Prod.snd := by
    rw [List.filter_eq_self]; intro c hc
    obtain ⟨m, hm, rfl⟩ := List.mem_map.mp hc; simpa using ho m hm
  rw [h1, h2, h3, h4]; simp

/-- What the grammar implies about the hierarchy. -/
structure Facts (strict : Prop) (w : List Byte) (c : Chunk) : Prop where
  consistent : Consistent c
  standard : Standard c
  split : ListsSplit c
  length : w.length = (encode c).length
  same : strict → w = encode c

theorem mem_snd {ms : List (List Byte × Chunk)} {c : Chunk} (h : c ∈ ms.map Prod.snd) :
    ∃ m ∈ ms, m.2 = c := List.mem_map.mp h

theorem flatMap_even {ms : List (List Byte × Chunk)} (h : ∀ m ∈ ms, m.1.length % 2 = 0) :
    (ms.flatMap Prod.fst).length % 2 = 0 := by
  induction ms with
  | nil => rfl
  | cons m ms ih =>
    have h1 := h m List.mem_cons_self
    have h2 := ih fun m hm => h m (List.mem_cons_of_mem _ hm)
    simp only [List.flatMap_cons, List.length_append]; omega

theorem Spec.Encodes.facts {strict : Prop} {w : List Byte} {c : Chunk} (h : Encodes strict w c) :
    Facts strict w c := by
  induction h with
  | @data id size bytes p h1 h2 h3 h4 h5 h6 =>
    unfold Composite at h1
    refine ⟨.raw h3 h4, .raw (fun h => h1 (Or.inl h)) (fun h => h1 (Or.inr (Or.inl h)))
      (fun h => h1 (Or.inr (Or.inr h))) h2, .raw, ?_, ?_⟩
    · have := pad_length size
      simp only [encode, List.length_append]; omega
    · intro hs; rw [h6 hs, encode]
  | @group id size ty ms h1 h2 h3 _ ih =>
    have hl := encodeAll_map_length fun m hm => (ih m hm).length
    have heven : (encodeAll (ms.map Prod.snd)).length % 2 = 0 := by
      rw [hl]
      exact flatMap_even fun m hm => by
        have h1 := (ih m hm).length
        have h2 := (ih m hm).consistent.length
        omega
    have hpad : pad size = [] := by unfold pad; rw [if_neg]; omega
    refine ⟨.grp (by omega) h3 ?_, .grp h1 ?_, .grp ?_, ?_, ?_⟩
    · intro c hc; obtain ⟨m, hm, rfl⟩ := mem_snd hc; exact (ih m hm).consistent
    · intro c hc; obtain ⟨m, hm, rfl⟩ := mem_snd hc; exact (ih m hm).standard
    · intro c hc; obtain ⟨m, hm, rfl⟩ := mem_snd hc; exact (ih m hm).split
    · simp only [encode, List.length_append, hpad, List.length_nil]; omega
    · intro hs
      rw [encode, hpad, List.append_nil, encodeAll_map_eq fun m hm => (ih m hm).same hs]
  | @list size ty ms h2 h3 _ h5 ih =>
    have hl := encodeAll_map_length fun m hm => (ih m hm).length
    have hsp := encodeAll_prop_split (ms.map Prod.snd)
    have heven : (encodeAll (ms.map Prod.snd)).length % 2 = 0 := by
      rw [hl]
      exact flatMap_even fun m hm => by
        have h1 := (ih m hm).length
        have h2 := (ih m hm).consistent.length
        omega
    have hpad : pad size = [] := by unfold pad; rw [if_neg]; omega
    refine ⟨.lst (by omega) h3 ?_ ?_, .lst rfl ?_ ?_, .lst ?_ ?_ ?_ ?_, ?_, ?_⟩
    · intro c hc; obtain ⟨m, hm, rfl⟩ := mem_snd (List.mem_filter.mp hc).1; exact (ih m hm).consistent
    · intro c hc; obtain ⟨m, hm, rfl⟩ := mem_snd (List.mem_filter.mp hc).1; exact (ih m hm).consistent
    · intro c hc; obtain ⟨m, hm, rfl⟩ := mem_snd (List.mem_filter.mp hc).1; exact (ih m hm).standard
    · intro c hc; obtain ⟨m, hm, rfl⟩ := mem_snd (List.mem_filter.mp hc).1; exact (ih m hm).standard
    · intro c hc; simpa using (List.mem_filter.mp hc).2
    · intro c hc; simpa using (List.mem_filter.mp hc).2
    · intro c hc; obtain ⟨m, hm, rfl⟩ := mem_snd (List.mem_filter.mp hc).1; exact (ih m hm).split
    · intro c hc; obtain ⟨m, hm, rfl⟩ := mem_snd (List.mem_filter.mp hc).1; exact (ih m hm).split
    · simp only [encode, List.length_append, hpad, List.length_nil]; omega
    · intro hs
      obtain ⟨ps, os, rfl, hp, ho⟩ := h5 hs
      obtain ⟨e1, e2⟩ := split_props hp ho
      rw [encode, hpad, List.append_nil, e1, e2]
      rw [encodeAll_map_eq fun m hm => (ih m (List.mem_append_left _ hm)).same hs,
        encodeAll_map_eq fun m hm => (ih m (List.mem_append_right _ hm)).same hs,
        List.flatMap_append, List.append_assoc]

theorem Spec.Encodes.weaken {strict : Prop} {w : List Byte} {c : Chunk} (h : Encodes strict w c) :
    Encodes False w c := by
  induction h with
  | data h1 h2 h3 h4 h5 _ => exact .data h1 h2 h3 h4 h5 False.elim
  | group ms h1 h2 h3 _ ih => exact .group ms h1 h2 h3 ih
  | list ms h2 h3 _ _ ih => exact .list ms h2 h3 ih False.elim

/-- The grammar is a part of what the reader accepts. -/
theorem Spec.Encodes.wire {strict : Prop} {e : Env} {w : List Byte} {c : Chunk}
    (h : Encodes strict w c) :
    (∀ n ≤ w.length, e.mallocOk n = true) → ∀ ft, ∃ notes, Wire e defaultRegistry ft w c notes := by
  have hle : ∀ {ms : List (List Byte × Chunk)} {m}, m ∈ ms →
      m.1.length ≤ (ms.flatMap Prod.fst).length := by
    intro ms m hm
    induction ms with
    | nil => simp at hm
    | cons a ms ih =>
      simp only [List.flatMap_cons, List.length_append]
      rcases List.mem_cons.mp hm with rfl | hm
      · omega
      · have := ih hm; omega
  have pieces : ∀ {ty} (ms : List (List Byte × Chunk)),
      (∀ m ∈ ms, ∃ notes, Wire e defaultRegistry ty m.1 m.2 notes) →
      ∃ ps : List Piece, (∀ q ∈ ps, Wire e defaultRegistry ty q.w q.c q.notes) ∧
        wires ps = ms.flatMap Prod.fst ∧ ps.map Piece.c = ms.map Prod.snd := by
    intro ty ms
    induction ms with
    | nil => intro _; exact ⟨[], by simp, rfl, rfl⟩
    | cons m ms ih =>
      intro h
      obtain ⟨n, hn⟩ := h m List.mem_cons_self
      obtain ⟨ps, h1, h2, h3⟩ := ih fun m hm => h m (List.mem_cons_of_mem _ hm)
      refine ⟨⟨m.1, m.2, n⟩ :: ps, ?_, ?_, ?_⟩
      · intro q hq
        rcases List.mem_cons.mp hq with rfl | hq
        · exact hn
        · exact h1 q hq
      · simp [wires] at h2 ⊢; exact h2
      · simp [h3]
  induction h with
  | @data id size bytes p h1 h2 h3 h4 h5 h6 =>
    intro hm ft
    unfold Composite at h1
    have hp : PadWire size p (if p = [] ∨ p = [0] then [] else [.padNonZero]) := by
      unfold PadWire
      by_cases ho : size % 2 = 0
      · rw [ho] at h5
        have : p = [] := List.length_eq_zero_iff.mp (by omega)
        left; simp [ho, this]
      · obtain ⟨b, rfl⟩ := List.length_eq_one_iff.mp (by omega : p.length = 1)
        right; exact ⟨by omega, b, rfl, by simp⟩
    refine ⟨_, .raw ?_ h3 h4 (hm _ (by simp only [List.length_append]; omega)) hp⟩
    rw [findChunkType_default, if_neg fun h => h1 (Or.inl h),
      if_neg fun h => h1 (Or.inr (Or.inl h)), if_neg fun h => h1 (Or.inr (Or.inr h)), if_neg h2]
  | @group id size ty ms h1 h2 h3 hE ih =>
    intro hm ft
    have hf := (Encodes.group (ty := ty) ms h1 h2 h3 hE).facts
    obtain ⟨ps, hw, hb, hc⟩ := pieces (ty := ty) ms fun m hmm => ih m hmm (fun n hn => hm n (by
      have := hle hmm
      simp only [List.length_append]; omega)) ty
    have heven := hf.consistent.length
    have := hf.length
    have hp : PadWire size [] [] := Or.inl ⟨by
      simp only [List.length_append, header_length, be_length, Chunk.size] at this heven
      omega, rfl, rfl⟩
    refine ⟨ps.flatMap Piece.notes ++ [], ?_⟩
    have := Wire.grp (e := e) (r := defaultRegistry) (ft := ft) (id := id) (size := size) (ty := ty)
      ps (h := if id = idFORM then .form else if id = idCAT then .cat else .prop) ?_ ?_
      (by rw [hb]; exact h2) h3 hw hp
    · rw [hb, hc, List.append_nil] at this
      exact this
    · rw [findChunkType_default]
      rcases h1 with rfl | rfl | rfl <;> rfl
    · rcases h1 with rfl | rfl | rfl
      · exact Or.inl rfl
      · exact Or.inr (Or.inl rfl)
      · exact Or.inr (Or.inr rfl)
  | @list size ty ms h2 h3 hE h5 ih =>
    intro hm ft
    have hf := (Encodes.list (ty := ty) ms h2 h3 hE h5).facts
    obtain ⟨ps, hw, hb, hc⟩ := pieces (ty := ty) ms fun m hmm => ih m hmm (fun n hn => hm n (by
      have := hle hmm
      simp only [List.length_append]; omega)) ty
    have heven := hf.consistent.length
    have := hf.length
    have hp : PadWire size [] [] := Or.inl ⟨by
      simp only [List.length_append, header_length, be_length, Chunk.size] at this heven
      omega, rfl, rfl⟩
    refine ⟨ps.flatMap Piece.notes ++ [], ?_⟩
    have := Wire.lst (e := e) (r := defaultRegistry) (ft := ft) (size := size) (ty := ty)
      ps ?_ (by rw [hb]; exact h2) h3 hw hp
    · rw [hb, hc, List.append_nil] at this
      exact this
    · rw [findChunkType_default]; rfl

theorem default_raw {ft id : ID} (hh : findChunkType defaultRegistry ft id = .raw) :
    ¬ Composite id ∧ id ≠ idPROP := by
  rw [findChunkType_default] at hh
  unfold Composite
  split at hh
  · simp at hh
  · split at hh
    · simp at hh
    · split at hh
      · simp at hh
      · split at hh
        · simp at hh
        · simp [*]

/-- What the default registry reads, without its bytes. -/
structure Shaped (w : List Byte) (c : Chunk) : Prop where
  standard : Standard c
  raws : RawSizes c
  props : PropArrays c
  length : w.length = (encode c).length

theorem bites_length_eq {ps : List Bite} (h : ∀ q ∈ ps, Shaped q.1 q.2) :
    (encodeAll (ps.map Prod.snd)).length = (bites ps).length :=
  encodeAll_map_length fun m hm => (h m hm).length

theorem Loose.shaped {e : Env} {ft : ID} {w : List Byte} {c : Chunk}
    (h : Loose e defaultRegistry ft w c) : Shaped w c := by
  induction h with
  | @raw ft id data p pn sz hh hs hp hm =>
    have hn : id ≠ idFORM ∧ id ≠ idCAT ∧ id ≠ idLIST ∧ id ≠ idPROP := by
      have := default_raw hh
      unfold Composite at this
      refine ⟨?_, ?_, ?_, ?_⟩ <;> intro h <;> simp [h] at this
    refine ⟨.raw hn.1 hn.2.1 hn.2.2.1 hn.2.2.2, ?_, ?_, ?_⟩
    · intro i s d hw; cases hw; exact hs
    · intro i s t u p hw; cases hw
    · have h1 := hp.length
      have h2 := pad_length sz.toInt
      simp only [encode, List.length_append, header_length, bytes32_length]; omega
  | @grp ft id ty p pn h bp sz ps hh hk _ ht hp ih =>
    refine ⟨.grp (default_group hh hk) ?_, ?_, ?_, ?_⟩
    · intro c hc; obtain ⟨m, hm, rfl⟩ := mem_snd hc; exact (ih m hm).standard
    · intro i s d hw
      cases hw with
      | grp hc hw => obtain ⟨m, hm, rfl⟩ := mem_snd hc; exact (ih m hm).raws _ _ _ hw
    · intro i s t u pr hw
      cases hw with
      | grp hc hw => obtain ⟨m, hm, rfl⟩ := mem_snd hc; exact (ih m hm).props _ _ _ _ _ hw
    · have h1 := hp.length
      have h2 := pad_length sz.toInt
      have h3 := bites_length_eq ih
      simp only [encode, List.length_append, header_length, bytes32_length, be_length]; omega
  | @lst ft id ty p pn bp sz ps hh _ ht hp ih =>
    refine ⟨.lst rfl ?_ ?_, ?_, ?_, ?_⟩
    · intro c hc; obtain ⟨m, hm, rfl⟩ := mem_snd (List.mem_filter.mp hc).1; exact (ih m hm).standard
    · intro c hc; obtain ⟨m, hm, rfl⟩ := mem_snd (List.mem_filter.mp hc).1; exact (ih m hm).standard
    · intro i s d hw
      cases hw with
      | sub hc hw | prop hc hw =>
        obtain ⟨m, hm, rfl⟩ := mem_snd (List.mem_filter.mp hc).1; exact (ih m hm).raws _ _ _ hw
    · intro i s t u pr hw
      cases hw with
      | self => intro c hc; simpa using (List.mem_filter.mp hc).2
      | sub hc hw | prop hc hw =>
        obtain ⟨m, hm, rfl⟩ := mem_snd (List.mem_filter.mp hc).1; exact (ih m hm).props _ _ _ _ _ hw
    · have h1 := hp.length
      have h2 := pad_length sz.toInt
      have h3 := bites_length_eq ih
      have h4 := encodeAll_prop_split (ps.map Prod.snd)
      simp only [encode, List.length_append, header_length, bytes32_length, be_length]; omega
  | @ext ft id vals body p pn fields chk sz hh hk hp =>
    rw [findChunkType_default] at hh
    repeat' split at hh
    all_goals simp at hh

/-- Memory for the data was available. -/
theorem Loose.malloc {e : Env} {r : Registry} {ft : ID} {w : List Byte} {c : Chunk} {id : ID}
    {size : Int} {data : List Byte} (h : Loose e r ft w c) :
    Within (.raw id size data) c → e.mallocOk data.length = true := by
  induction h with
  | raw _ _ _ hm => intro hw; cases hw; exact hm
  | grp ps _ _ _ _ _ ih =>
    intro hw
    cases hw with
    | grp hc hw => obtain ⟨m, hm, rfl⟩ := mem_snd hc; exact ih m hm hw
  | lst ps _ _ _ _ ih =>
    intro hw
    cases hw with
    | sub hc hw | prop hc hw =>
      obtain ⟨m, hm, rfl⟩ := mem_snd (List.mem_filter.mp hc).1; exact ih m hm hw
  | ext => intro hw; cases hw

theorem header_eq_bytes {id : ID} {sz : BitVec 32} (h : 0 ≤ sz.toInt) :
    header id sz.toInt = bytes32 id ++ bytes32 sz := by
  unfold header
  have : sz.toInt.toNat = sz.toNat := by
    rw [BitVec.toInt_eq_toNat_cond] at h ⊢
    have := sz.isLt
    split at h <;> split <;> omega
  rw [this, be4_eq, be4_eq]

theorem spans_filter (cs : List Chunk) :
    spans (cs.filter fun c => decide (c.id = idPROP)) +
      spans (cs.filter fun c => decide (c.id ≠ idPROP)) = spans cs := by
  induction cs with
  | nil => rfl
  | cons c cs ih =>
    by_cases h : c.id = idPROP <;> simp [h, spans_cons] at ih ⊢ <;> omega

/-- What was read and conforms to IFF-85 was an encoding according to the grammar. -/
theorem Loose.encodes {e : Env} {F : ID → Prop} {ft : ID} {w : List Byte} {c : Chunk}
    (h : Loose e defaultRegistry ft w c) : ConformsBy F c →
    Encodes False w c ∧ (w.length : Int) = span c.size := by
  have total : ∀ {ps : List Bite}, (∀ q ∈ ps, (q.1.length : Int) = span q.2.size) →
      ((bites ps).length : Int) = spans (ps.map Prod.snd) := by
    intro ps
    induction ps with
    | nil => intro _; rfl
    | cons q ps ih =>
      intro h
      have h1 := h q List.mem_cons_self
      have h2 := ih fun q hq => h q (List.mem_cons_of_mem _ hq)
      rw [List.map_cons, spans_cons, bites_cons, List.length_append]
      omega
  have even : ∀ cs : List Chunk, spans cs % 2 = 0 := by
    intro cs
    induction cs with
    | nil => simp [spans]
    | cons c cs ih => rw [spans_cons, span]; omega
  have nil : ∀ {sz : BitVec 32} {p pn}, PadWire sz.toInt p pn → sz.toInt % 2 = 0 → p = [] := by
    intro sz p pn h h0
    have := h.length
    exact List.length_eq_zero_iff.mp (by omega)
  induction h with
  | @raw ft id data p pn sz hh hs hp hm =>
    intro hc
    have hn := default_raw hh
    refine ⟨?_, ?_⟩
    · rw [← header_eq_bytes (by omega)]
      exact .data hn.1 hn.2 hs (by have := toInt_inInt sz; unfold inInt at this; omega) hp.length
        False.elim
    · have := hp.length
      simp only [Chunk.size, span, List.length_append, bytes32_length]; omega
  | @grp ft id ty p pn h bp sz ps hh hk _ ht hp ih =>
    intro hc
    have hm : ∀ q ∈ ps, ConformsBy F q.2 := fun q hq => by
      cases hc with
      | form _ _ _ h => exact h _ (List.mem_map_of_mem hq)
      | prop _ _ _ h => exact h _ (List.mem_map_of_mem hq)
      | cat _ _ _ _ h => exact h _ (List.mem_map_of_mem hq)
    have hsz : sz.toInt = 4 + spans (ps.map Prod.snd) := by cases hc <;> assumption
    have ht' := total fun q hq => (ih q hq (hm q hq)).2
    have := even (ps.map Prod.snd)
    obtain rfl := nil hp (by omega)
    refine ⟨?_, ?_⟩
    · rw [← header_eq_bytes (by omega), List.append_nil, ← be4_eq]
      refine .group ps (default_group hh hk) (by rw [hsz, ← ht']; rfl)
        (by have := toInt_inInt sz; unfold inInt at this; omega) fun q hq => (ih q hq (hm q hq)).1
    · simp only [Chunk.size, span, List.length_append, bytes32_length, List.length_nil]; omega
  | @lst ft id ty p pn bp sz ps hh _ ht hp ih =>
    intro hc
    have hm : ∀ q ∈ ps, ConformsBy F q.2 := fun q hq => by
      cases hc with
      | list _ _ _ _ _ h1 h2 =>
        by_cases hq' : q.2.id = idPROP
        · exact h2 _ (List.mem_filter.mpr ⟨List.mem_map_of_mem hq, by simpa using hq'⟩)
        · exact h1 _ (List.mem_filter.mpr ⟨List.mem_map_of_mem hq, by simpa using hq'⟩)
    have hsz : sz.toInt = 4 + spans (ps.map Prod.snd) := by
      have := spans_filter (ps.map Prod.snd)
      cases hc with
      | list _ _ _ _ h _ _ => omega
    have ht' := total fun q hq => (ih q hq (hm q hq)).2
    have := even (ps.map Prod.snd)
    obtain rfl := nil hp (by omega)
    refine ⟨?_, ?_⟩
    · rw [default_list hh, ← header_eq_bytes (by omega), List.append_nil, ← be4_eq]
      refine .list ps (by rw [hsz, ← ht']; rfl)
        (by have := toInt_inInt sz; unfold inInt at this; omega)
        (fun q hq => (ih q hq (hm q hq)).1) False.elim
    · simp only [Chunk.size, span, List.length_append, bytes32_length, List.length_nil]; omega
  | @ext ft id vals body p pn fields chk sz hh hk hp =>
    rw [findChunkType_default] at hh
    repeat' split at hh
    all_goals simp at hh

theorem filter_self_of {p : Chunk → Bool} {cs : List Chunk} (h : ∀ c ∈ cs, p c = true) :
    cs.filter p = cs := List.filter_eq_self.mpr h

/-- The encoding that `IFF_write` produces is the strict one of the grammar. -/
theorem encodes_encode (c : Chunk) :
    Consistent c → Standard c → ListsSplit c → Encodes True (encode c) c := by
  have key : ∀ cs : List Chunk,
      ((cs.map fun c => (encode c, c)).flatMap Prod.fst) = encodeAll cs ∧
      (cs.map fun c => (encode c, c)).map Prod.snd = cs := by
    intro cs
    induction cs with
    | nil => exact ⟨rfl, rfl⟩
    | cons c cs ih => simp only [List.map_cons, List.flatMap_cons, encodeAll, ih.1, ih.2, and_self]
  induction c using Chunk.ind with
  | raw id size data =>
    intro hc hs _
    cases hc with
    | raw h1 h2 =>
      cases hs with
      | raw g1 g2 g3 g4 =>
        exact .data (by unfold Composite; simp [*]) g4 h1 h2 (pad_length size) (fun _ => rfl)
  | ext id size vals => intro _ hs; cases hs
  | grp id size ty subs ih =>
    intro hc hs hl
    have hlen := hc.length
    cases hc with
    | grp h1 h2 h3 =>
      cases hs with
      | grp g1 g2 =>
        cases hl with
        | grp l1 =>
          have h := Encodes.group (strict := True) (ty := ty) (size := size)
            (subs.map fun c => (encode c, c)) g1
            (by rw [(key subs).1]; exact h1) h2 (by
              intro m hm
              obtain ⟨c, hc, rfl⟩ := List.mem_map.mp hm
              exact ih c hc (h3 c hc) (g2 c hc) (l1 c hc))
          rw [(key subs).1, (key subs).2] at h
          have hpad : pad size = [] := by
            rw [encode] at hlen
            simp only [List.length_append, header_length, be_length, Chunk.size] at hlen
            have := pad_length size
            unfold pad; rw [if_neg]
            have he : (encodeAll subs).length % 2 = 0 := by
              rw [← (key subs).1]
              refine flatMap_even fun m hm => ?_
              obtain ⟨c, hc, rfl⟩ := List.mem_map.mp hm
              have := (h3 c hc).length
              simp only; omega
            omega
          rw [encode, hpad, List.append_nil]
          exact h
  | lst id size ty subs props ih ih2 =>
    intro hc hs hl
    cases hc with
    | lst h1 h2 h3 h4 =>
      cases hs with
      | lst g1 g2 g3 =>
        cases hl with
        | lst l1 l2 l3 l4 =>
          subst g1
          have h := Encodes.list (strict := True) (ty := ty) (size := size)
            (props.map (fun c => (encode c, c)) ++ subs.map fun c => (encode c, c))
            (by rw [List.flatMap_append, (key subs).1, (key props).1, List.length_append]; omega) h2 (by
              intro m hm
              rcases List.mem_append.mp hm with hm | hm
              · obtain ⟨c, hc, rfl⟩ := List.mem_map.mp hm
                exact ih2 c hc (h4 c hc) (g3 c hc) (l4 c hc)
              · obtain ⟨c, hc, rfl⟩ := List.mem_map.mp hm
                exact ih c hc (h3 c hc) (g2 c hc) (l3 c hc))
            (fun _ => ⟨_, _, rfl, by
              intro m hm; obtain ⟨c, hc, rfl⟩ := List.mem_map.mp hm; exact l2 c hc, by
              intro m hm; obtain ⟨c, hc, rfl⟩ := List.mem_map.mp hm; exact l1 c hc⟩)
          have hsp := split_props (ps := props.map fun c => (encode c, c))
            (os := subs.map fun c => (encode c, c))
            (by intro m hm; obtain ⟨c, hc, rfl⟩ := List.mem_map.mp hm; exact l2 c hc)
            (by intro m hm; obtain ⟨c, hc, rfl⟩ := List.mem_map.mp hm; exact l1 c hc)
          rw [hsp.1, hsp.2, List.flatMap_append, (key subs).1, (key subs).2, (key props).1,
            (key props).2] at h
          have hpad : pad size = [] := by
            unfold pad; rw [if_neg]
            have he : ∀ cs : List Chunk, (∀ c ∈ cs, Consistent c) → (encodeAll cs).length % 2 = 0 := by
              intro cs hcs
              rw [← (key cs).1]
              refine flatMap_even fun m hm => ?_
              obtain ⟨c, hc, rfl⟩ := List.mem_map.mp hm
              have := (hcs c hc).length
              simp only; omega
            have := he subs h3
            have := he props h4
            omega
          rw [encode, hpad, List.append_nil, List.append_assoc]
          exact h

end Iff
