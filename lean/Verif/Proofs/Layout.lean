import Verif.Spec.Layout
import Verif.Proofs.Fine
import Verif.Props.Dump
/-
  Lemmas for C56: the printed text is the specified one, and determines the hierarchy.
-/
namespace Iff
open Spec

theorem asc_ascii (s : String) : asc s = ascii s := rfl

theorem printId_be (id : ID) : printId id = be 4 id.toNat := by
  rw [printId, idToString_eq, be4_eq]

theorem be_id_inj {a b : ID} (h : be 4 a.toNat = be 4 b.toNat) : a = b := by
  rw [be4_eq, be4_eq] at h
  exact bytes32_inj h

theorem digits_eq (n : Nat) : (Nat.toDigits 10 n).map (fun c => BitVec.ofNat 8 c.toNat) = digits n := by
  induction n using Nat.strongRecOn with
  | ind n ih =>
    have hd : ∀ d < 10, BitVec.ofNat 8 (Nat.digitChar d).toNat = BitVec.ofNat 8 (48 + d) := by decide
    rw [digits]
    by_cases h : n < 10
    · rw [if_pos h, Nat.toDigits_of_lt_base h, List.map_cons, List.map_nil, hd n h]
    · rw [if_neg h, Nat.toDigits_of_base_le (by omega) (by omega), List.map_append, ih _ (by omega),
        List.map_cons, List.map_nil, hd _ (by omega)]

theorem decimal_number (x : Int) : decimal x = number x := by
  unfold decimal number
  rw [digits_eq]
  rfl

theorem printRawChunk_contents (id : ID) (data : List Byte) (level : Nat) :
    printRawChunk id (data.length : Int) data level = .val (contents level id data) := by
  have hid : id = idTEXT ↔ be 4 id.toNat = ascii "TEXT" := by
    have h : be 4 idTEXT.toNat = ascii "TEXT" := by decide
    constructor
    · rintro rfl; exact h
    · intro h'
      exact be_id_inj (h'.trans h.symm)
  by_cases h : id = idTEXT
  · unfold printRawChunk contents
    rw [if_pos h, if_pos (hid.mp h)]
    unfold printText dataBytes
    rw [if_pos (by omega)]
    simp only [Out.val_bind, Int.toNat_natCast, List.take_length, Out.val.injEq, indent_spaces, line]
    have h1 : asc "text = '\n" = ascii "text = '" ++ [10] := by decide
    have h2 : asc "\n" = [10] := by decide
    have h3 : asc "';\n" = ascii "';" ++ [10] := by decide
    rw [h1, h2, h3]
    simp only [List.append_assoc, List.nil_append]
  · rw [C32_dump id h data level]
    unfold contents
    rw [if_neg fun h' => h (hid.mpr h')]

theorem printChunkWith_frame (c : Chunk) (level : Nat) (body : List Byte) :
    printChunkWith c level (.val body) = .val (frame level c.id c.size body) := by
  have h1 : asc "'" = ascii "'" := rfl
  have h2 : asc "' = {\n" = ascii "' = {" ++ [10] := by decide
  have h3 : asc "chunkSize = " = ascii "chunkSize = " := rfl
  have h4 : asc ";\n" = ascii ";" ++ [10] := by decide
  have h5 : asc "}\n\n" = ascii "}" ++ [10] ++ [10] := by decide
  simp only [printChunkWith, Out.val_bind, indent_spaces, printId_be, decimal_number, h1, h2, h3, h4,
    h5, frame, line]
  simp only [spaces, Nat.mul_zero, List.replicate_zero, List.append_assoc, List.nil_append]

theorem printGroupType_line (name : String) (ty : ID) (level : Nat) :
    printGroupType name ty level = typeLine level name ty := by
  have h1 : asc " = '" = ascii " = '" := rfl
  have h2 : asc "';\n" = ascii "';" ++ [10] := by decide
  simp only [printGroupType, indent_spaces, printId_be, h1, h2, asc_ascii, typeLine, line,
    List.append_assoc]

theorem open_line (level : Nat) : indent level (asc "[\n") = line level (ascii "[") := by
  have h : asc "[\n" = ascii "[" ++ [10] := by decide
  rw [indent_spaces, h, line, List.append_assoc]

theorem close_line (level : Nat) : indent level (asc "];\n") = line level (ascii "];") := by
  have h : asc "];\n" = ascii "];" ++ [10] := by decide
  rw [indent_spaces, h, line, List.append_assoc]

theorem prop_line (level : Nat) : indent level (asc "prop = [\n") = line level (ascii "prop = [") := by
  have h : asc "prop = [\n" = ascii "prop = [" ++ [10] := by decide
  rw [indent_spaces, h, line, List.append_assoc]

theorem printSubs_layout {ty : ID} {level : Nat} : ∀ {cs : List Chunk},
    (∀ c ∈ cs, printChunk defaultRegistry level ty c = .val (layout level c)) →
    printSubs defaultRegistry ty level cs = .val (layoutAll level cs)
  | [], _ => by rw [printSubs, layoutAll]
  | c :: cs, h => by
    have h1 := h c List.mem_cons_self
    unfold printChunk at h1
    rw [printSubs, h1, printSubs_layout fun d hd => h d (List.mem_cons_of_mem _ hd), layoutAll]
    rfl

/-- The printed text is the specified one. -/
theorem printChunk_layout (c : Chunk) : ∀ ft level, Standard c → RawSizes c →
    printChunk defaultRegistry level ft c = .val (layout level c) := by
  have hcat : be 4 idCAT.toNat = ascii "CAT " := by decide
  induction c using Chunk.ind with
  | raw id size data =>
    intro ft level hs hz
    have hsz := hz _ _ _ .self
    have hd := standard_iff (ft := ft).mpr hs
    cases hd with
    | raw hh =>
      rw [← findChunkType_iff defaultRegistry_sorted] at hh
      rw [printChunk, Chunk.id, hh, printFields, hsz, printRawChunk_contents, printChunkWith_frame,
        layout, Chunk.id, Chunk.size]
  | ext id size vals => intro ft level hs; cases hs
  | grp id size ty subs ih =>
    intro ft level hs hz
    cases hs with
    | grp hk hss =>
      have hb := printSubs_layout (ty := ty) (level := level + 1) (cs := subs)
        fun c hc => ih c hc ty (level + 1) (hss c hc) (hz.grp hc)
      have hgroup : ∀ name, printGroupWith name ty level (.val (layoutAll (level + 1) subs)) =
          .val (typeLine level name ty ++ line level (ascii "[") ++ layoutAll (level + 1) subs ++
            line level (ascii "];")) := by
        intro name
        simp only [printGroupWith, Out.val_bind, printGroupType_line, open_line, close_line]
      have hform : be 4 idFORM.toNat ≠ ascii "CAT " := by decide
      have hprop : be 4 idPROP.toNat ≠ ascii "CAT " := by decide
      rcases hk with rfl | rfl | rfl
      · have hh : findChunkType defaultRegistry ft idFORM = .form := by
          rw [findChunkType_default]; rfl
        rw [printChunk, Chunk.id, hh, printFields, hb, hgroup, printChunkWith_frame, layout,
          Chunk.id, Chunk.size, if_neg hform]
      · have hh : findChunkType defaultRegistry ft idCAT = .cat := by
          rw [findChunkType_default]; rfl
        rw [printChunk, Chunk.id, hh, printFields, hb, hgroup, printChunkWith_frame, layout,
          Chunk.id, Chunk.size, if_pos hcat]
      · have hh : findChunkType defaultRegistry ft idPROP = .prop := by
          rw [findChunkType_default]; rfl
        rw [printChunk, Chunk.id, hh, printFields, hb, hgroup, printChunkWith_frame, layout,
          Chunk.id, Chunk.size, if_neg hprop]
  | lst id size ty subs props ih ihp =>
    intro ft level hs hz
    have hd := standard_iff (ft := ft).mpr hs
    cases hs with
    | lst hk hss hsp =>
      have hb := printSubs_layout (ty := ty) (level := level + 1) (cs := subs)
        fun c hc => ih c hc ty (level + 1) (hss c hc) (hz.sub hc)
      have hp := printSubs_layout (ty := ty) (level := level + 1) (cs := props)
        fun c hc => ihp c hc ty (level + 1) (hsp c hc) (hz.prop hc)
      cases hd with
      | lst hh _ _ =>
        rw [← findChunkType_iff defaultRegistry_sorted] at hh
        rw [printChunk, Chunk.id, hh, printFields, hp, hb]
        simp only [Out.val_bind]
        rw [printChunkWith_frame, layout, Chunk.id, Chunk.size, open_line, close_line, prop_line,
          printGroupType_line]

/-! ### The text determines the hierarchy -/

theorem split_at {α : Type} {x : α} : ∀ {a b r r' : List α}, (∀ y ∈ a, y ≠ x) → (∀ y ∈ b, y ≠ x) →
    a ++ x :: r = b ++ x :: r' → a = b ∧ r = r'
  | [], [], _, _, _, _, h => by simpa using h
  | [], y :: b, _, _, _, hb, h => by
    simp only [List.nil_append, List.cons_append, List.cons.injEq] at h
    exact absurd h.1.symm (hb y List.mem_cons_self)
  | y :: a, [], _, _, ha, _, h => by
    simp only [List.nil_append, List.cons_append, List.cons.injEq] at h
    exact absurd h.1 (ha y List.mem_cons_self)
  | y :: a, z :: b, _, _, ha, hb, h => by
    simp only [List.cons_append, List.cons.injEq] at h
    obtain ⟨h1, h2⟩ := split_at (fun y hy => ha y (List.mem_cons_of_mem _ hy))
      (fun y hy => hb y (List.mem_cons_of_mem _ hy)) h.2
    exact ⟨by rw [h.1, h1], h2⟩

theorem digit_range (d : Nat) (h : d < 10) : 48 ≤ (BitVec.ofNat 8 (48 + d)).toNat ∧
    (BitVec.ofNat 8 (48 + d)).toNat ≤ 57 ∧ (BitVec.ofNat 8 (48 + d)).toNat - 48 = d := by
  rw [BitVec.toNat_ofNat, Nat.mod_eq_of_lt (by omega)]
  omega

theorem digits_range (n : Nat) : ∀ b ∈ digits n, 48 ≤ b.toNat ∧ b.toNat ≤ 57 := by
  induction n using Nat.strongRecOn with
  | ind n ih =>
    intro b hb
    rw [digits] at hb
    split at hb
    · rename_i h
      simp only [List.mem_singleton] at hb
      subst hb
      exact ⟨(digit_range n h).1, (digit_range n h).2.1⟩
    · rcases List.mem_append.mp hb with hb | hb
      · exact ih _ (by omega) b hb
      · simp only [List.mem_singleton] at hb
        subst hb
        exact ⟨(digit_range _ (by omega)).1, (digit_range _ (by omega)).2.1⟩

/-- The number that digits stand for. -/
def ofDigits (l : List Byte) : Nat := l.foldl (fun n b => 10 * n + (b.toNat - 48)) 0

theorem ofDigits_digits (n : Nat) : ofDigits (digits n) = n := by
  induction n using Nat.strongRecOn with
  | ind n ih =>
    rw [digits]
    split
    · rename_i h
      simp only [ofDigits, List.foldl_cons, List.foldl_nil]
      rw [(digit_range n h).2.2]
      omega
    · have h := ih (n / 10) (by omega)
      unfold ofDigits at h ⊢
      rw [List.foldl_append, h]
      simp only [List.foldl_cons, List.foldl_nil]
      rw [(digit_range (n % 10) (by omega)).2.2]
      omega

theorem digits_inj {n m : Nat} (h : digits n = digits m) : n = m := by
  rw [← ofDigits_digits n, h, ofDigits_digits]

theorem digits_head {n : Nat} {l : List Byte} : 45 :: l ≠ digits n := by
  intro h
  have := (digits_range n 45 (h ▸ List.mem_cons_self)).1
  exact absurd this (by decide)

theorem number_inj {x y : Int} (h : number x = number y) : x = y := by
  unfold number at h
  split at h <;> split at h
  · simp only [List.cons.injEq, true_and] at h
    have := digits_inj h; omega
  · exact absurd h digits_head
  · exact absurd h.symm digits_head
  · have := digits_inj h; omega

theorem number_no_semicolon (x : Int) : ∀ b ∈ number x, b ≠ 59 := by
  have hd : ∀ n, ∀ b ∈ digits n, b ≠ 59 := by
    rintro n b hb rfl
    exact absurd (digits_range n _ hb).2 (by decide)
  intro b hb
  unfold number at hb
  split at hb
  · rcases List.mem_cons.mp hb with rfl | hb
    · decide
    · exact hd _ b hb
  · exact hd _ b hb

theorem tens_length : ∀ (n : Nat) (a b : List Byte), a.length ≤ n → a.length = b.length →
    (tens a).map List.length = (tens b).map List.length := by
  intro n
  induction n with
  | zero =>
    intro a b ha h
    rw [tens, dif_pos (by omega), tens, dif_pos (by omega)]
    simp [h]
  | succ n ih =>
    intro a b ha h
    by_cases h10 : a.length ≤ 10
    · rw [tens, dif_pos h10, tens, dif_pos (by omega)]; simp [h]
    · rw [tens.eq_def a, tens.eq_def b, dif_neg h10, dif_neg (by omega)]
      simp only [List.map_cons, List.length_take, h]
      rw [ih (a.drop 10) (b.drop 10) (by rw [List.length_drop]; omega)
        (by rw [List.length_drop, List.length_drop, h])]

theorem dump_length (level : Nat) {a b : List Byte} (h : a.length = b.length) :
    (dump level a).length = (dump level b).length := by
  have hx : ∀ l : List Byte, (l.flatMap hexByte).length = 3 * l.length := by
    intro l
    induction l with
    | nil => rfl
    | cons b l ih => rw [List.flatMap_cons, List.length_append, ih, List.length_cons]
                     show 3 + _ = _
                     omega
  have hl : ∀ ls : List (List Byte),
      ((ls.map fun line => spaces (level + 1) ++ line.flatMap hexByte ++ [10]).flatten).length =
        ((ls.map List.length).map fun k => (spaces (level + 1)).length + 3 * k + 1).sum := by
    intro ls
    induction ls with
    | nil => rfl
    | cons l ls ih =>
      simp only [List.map_cons, List.flatten_cons, List.length_append, ih, List.sum_cons, hx,
        List.length_cons, List.length_nil]
  unfold dump
  simp only [List.length_append, hl, tens_length a.length a b (Nat.le_refl _) h]

theorem contents_inj {level : Nat} {id : ID} {a b : List Byte} (hl : a.length = b.length)
    {r r' : List Byte} (h : contents level id a ++ r = contents level id b ++ r') :
    a = b ∧ r = r' := by
  unfold contents at h
  split at h
  · simp only [line, List.append_assoc] at h
    have h1 := List.append_cancel_left (List.append_cancel_left (List.append_cancel_left
      (List.append_cancel_left h)))
    obtain ⟨h2, h3⟩ := List.append_inj h1 hl
    refine ⟨h2, ?_⟩
    exact List.append_cancel_left (List.append_cancel_left (List.append_cancel_left
      (List.append_cancel_left h3)))
  · obtain ⟨h1, h2⟩ := List.append_inj h (dump_length level hl)
    refine ⟨?_, h2⟩
    rw [← undump_dump level a, h1, undump_dump]

theorem frame_inj {level : Nat} {i j : ID} {n m : Int} {a b r r' : List Byte}
    (h : frame level i n a ++ r = frame level j m b ++ r') :
    i = j ∧ n = m ∧ ∃ t t', a ++ t = b ++ t' ∧
      t = line level (ascii "}") ++ line 0 [] ++ r ∧ t' = line level (ascii "}") ++ line 0 [] ++ r' := by
  unfold frame at h
  simp only [line, List.append_assoc] at h
  have h1 := List.append_cancel_left (List.append_cancel_left h)
  obtain ⟨h2, h3⟩ := List.append_inj h1 (by simp)
  have h4 := List.append_cancel_left (List.append_cancel_left (List.append_cancel_left
    (List.append_cancel_left h3)))
  have hs : ascii ";" = [59] := by decide
  rw [hs, List.singleton_append, List.singleton_append] at h4
  obtain ⟨h5, h6⟩ := split_at (number_no_semicolon n) (number_no_semicolon m) h4
  refine ⟨be_id_inj h2, number_inj h5, _, _, (List.cons.inj h6).2, ?_, ?_⟩ <;>
    simp only [line, List.append_assoc]

theorem typeLine_inj {level : Nat} {name : String} {s t : ID} {r r' : List Byte}
    (h : typeLine level name s ++ r = typeLine level name t ++ r') : s = t ∧ r = r' := by
  simp only [typeLine, line, List.append_assoc] at h
  obtain ⟨h1, h2⟩ := List.append_inj (List.append_cancel_left (List.append_cancel_left
    (List.append_cancel_left h))) (by simp)
  exact ⟨be_id_inj h1, List.append_cancel_left (List.append_cancel_left h2)⟩

/-- A member is indented deeper than the end of the array. -/
theorem layout_not_end {level : Nat} {c : Chunk} (hc : Standard c) {r r' : List Byte} :
    layout (level + 1) c ++ r ≠ line level (ascii "];") ++ r' := by
  have hs : spaces (level + 1) = spaces level ++ [32, 32] := by
    unfold spaces
    rw [show 2 * (level + 1) = 2 * level + 2 from by omega, ← List.replicate_append_replicate]
    rfl
  have hf : ∀ i n b, frame (level + 1) i n b ++ r ≠ line level (ascii "];") ++ r' := by
    intro i n b h
    have hk : ascii "];" = [93, 59] := by decide
    simp only [frame, line, hs, hk, List.append_assoc] at h
    have := List.append_cancel_left h
    simp at this
  cases hc with
  | raw => rw [layout]; exact hf _ _ _
  | grp => rw [layout]; exact hf _ _ _
  | lst => rw [layout]; exact hf _ _ _

theorem layoutAll_inj {level : Nat} : ∀ {cs ds : List Chunk},
    (∀ c ∈ cs, Standard c) → (∀ d ∈ ds, Standard d) →
    (∀ c ∈ cs, ∀ d ∈ ds, ∀ r r', layout (level + 1) c ++ r = layout (level + 1) d ++ r' →
      c = d ∧ r = r') → ∀ {r r'},
    layoutAll (level + 1) cs ++ (line level (ascii "];") ++ r) =
      layoutAll (level + 1) ds ++ (line level (ascii "];") ++ r') → cs = ds ∧ r = r'
  | [], [], _, _, _, _, _, h => by
    simp only [layoutAll, List.nil_append] at h
    exact ⟨rfl, List.append_cancel_left h⟩
  | [], d :: ds, _, hd, _, _, _, h => by
    rw [layoutAll, layoutAll, List.nil_append, List.append_assoc] at h
    exact absurd h.symm (layout_not_end (hd d List.mem_cons_self))
  | c :: cs, [], hc, _, _, _, _, h => by
    rw [layoutAll, layoutAll, List.nil_append, List.append_assoc] at h
    exact absurd h (layout_not_end (hc c List.mem_cons_self))
  | c :: cs, d :: ds, hc, hd, ih, _, _, h => by
    rw [layoutAll, layoutAll, List.append_assoc, List.append_assoc] at h
    obtain ⟨h1, h2⟩ := ih c List.mem_cons_self d List.mem_cons_self _ _ h
    obtain ⟨h3, h4⟩ := layoutAll_inj (fun c h => hc c (List.mem_cons_of_mem _ h))
      (fun d h => hd d (List.mem_cons_of_mem _ h))
      (fun c hc d hd => ih c (List.mem_cons_of_mem _ hc) d (List.mem_cons_of_mem _ hd)) h2
    exact ⟨by rw [h1, h3], h4⟩

theorem layout_id {level : Nat} {c d : Chunk} (hc : Standard c) (hd : Standard d) {r r' : List Byte}
    (h : layout level c ++ r = layout level d ++ r') : c.id = d.id := by
  cases hc <;> cases hd <;> rw [layout, layout] at h <;> exact (frame_inj h).1

/-- The text of a hierarchy determines it, and where it ends. -/
theorem layout_inj (c : Chunk) : ∀ (d : Chunk) (level : Nat), Standard c → Standard d → RawSizes c →
    RawSizes d → ∀ r r', layout level c ++ r = layout level d ++ r' → c = d ∧ r = r' := by
  induction c using Chunk.ind with
  | raw id size data =>
    intro d level hc hd hz hy r r' h
    have hid := layout_id hc hd h
    cases hc with
    | raw h1 h2 h3 h4 =>
    cases hd with
    | @raw j m b h5 h6 h7 h8 =>
      rw [layout, layout] at h
      obtain ⟨rfl, rfl, t, t', h9, rfl, rfl⟩ := frame_inj h
      have e1 := hz _ _ _ .self
      have e2 := hy _ _ _ .self
      obtain ⟨rfl, h10⟩ := contents_inj (by omega) h9
      exact ⟨rfl, List.append_cancel_left h10⟩
    | grp hk => 
      simp only [Chunk.id] at hid
      subst hid
      rcases hk with h | h | h <;> contradiction
    | lst hk =>
      simp only [Chunk.id] at hid
      subst hid
      contradiction
  | ext id size vals => intro d level hc; cases hc
  | grp id size ty subs ih =>
    intro d level hc hd hz hy r r' h
    have hid := layout_id hc hd h
    cases hc with
    | grp hk hs =>
    cases hd with
    | raw h1 h2 h3 h4 =>
      simp only [Chunk.id] at hid
      subst hid
      rcases hk with h | h | h <;> contradiction
    | @grp j m uy uubs hk' hs' =>
      rw [layout, layout] at h
      obtain ⟨rfl, rfl, t, t', h9, rfl, rfl⟩ := frame_inj h
      simp only [List.append_assoc] at h9
      obtain ⟨rfl, h10⟩ := typeLine_inj h9
      obtain ⟨rfl, h11⟩ := layoutAll_inj hs hs'
        (fun c hc d hd r r' => ih c hc d (level + 1) (hs c hc) (hs' d hd) (hz.grp hc) (hy.grp hd) r r')
        (List.append_cancel_left h10)
      refine ⟨rfl, ?_⟩
      exact List.append_cancel_left (List.append_cancel_left h11)
    | lst hk' =>
      simp only [Chunk.id] at hid
      subst hid hk'
      exact absurd hk (by decide)
  | lst id size ty subs props ih ihp =>
    intro d level hc hd hz hy r r' h
    have hid := layout_id hc hd h
    cases hc with
    | lst hk hs hp =>
    cases hd with
    | raw h1 h2 h3 h4 =>
      simp only [Chunk.id] at hid
      subst hid
      contradiction
    | grp hk' =>
      simp only [Chunk.id] at hid
      subst hid hk
      exact absurd hk' (by decide)
    | @lst j m uy uubs rops hk' hs' hp' =>
      rw [layout, layout] at h
      obtain ⟨rfl, rfl, t, t', h9, rfl, rfl⟩ := frame_inj h
      simp only [List.append_assoc] at h9
      obtain ⟨rfl, h10⟩ := typeLine_inj h9
      obtain ⟨rfl, h11⟩ := layoutAll_inj hp hp'
        (fun c hc d hd r r' => ihp c hc d (level + 1) (hp c hc) (hp' d hd) (hz.prop hc) (hy.prop hd) r r')
        (List.append_cancel_left h10)
      obtain ⟨rfl, h12⟩ := layoutAll_inj hs hs'
        (fun c hc d hd r r' => ih c hc d (level + 1) (hs c hc) (hs' d hd) (hz.sub hc) (hy.sub hd) r r')
        (List.append_cancel_left h11)
      refine ⟨rfl, ?_⟩
      exact List.append_cancel_left (List.append_cancel_left h12)

end Iff
