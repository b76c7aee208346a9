import Verif.Proofs.Layout
import Verif.Proofs.CheckApp
import Verif.Spec.LayoutApp
/-
  The text of a hierarchy with chunks of an application: what is printed, and that it determines the hierarchy.
-/
namespace Iff
open Spec

variable {r : Registry} {names : ID → ID → List String}

theorem printVal_text (v : Val) : printVal v = fieldText v := by
  have hnat : ∀ n : Nat, decimal (n : Int) = digits n := by
    intro n
    rw [decimal_number, number, if_neg (by omega), Int.natAbs_natCast]
  cases v <;> simp only [printVal, fieldText, decimal_number]
  all_goals rw [← decimal_number, hnat]

theorem printExt_lines (level : Nat) : ∀ (fs : List Field) (vs : List Val),
    printExt level fs vs = fieldLines level (fs.map Field.name) vs
  | [], _ => by cases ‹List Val› <;> rfl
  | _ :: _, [] => rfl
  | f :: fs, v :: vs => by
    have h2 : asc ";\n" = ascii ";" ++ [10] := by decide
    have h3 : asc " = " = ascii " = " := rfl
    rw [printExt, List.map_cons, fieldLines, printExt_lines level fs vs, indent_spaces, printVal_text, h2, h3,
      asc_ascii, line]
    simp only [List.append_assoc]

theorem printSubs_layoutApp {ty : ID} {level : Nat} : ∀ {cs : List Chunk},
    (∀ c ∈ cs, printChunk r level ty c = .val (layoutApp names ty level c)) →
    printSubs r ty level cs = .val (layoutAppAll names ty level cs)
  | [], _ => by rw [printSubs, layoutAppAll]
  | c :: cs, h => by
    have h1 := h c List.mem_cons_self
    unfold printChunk at h1
    rw [printSubs, h1, printSubs_layoutApp fun d hd => h d (List.mem_cons_of_mem _ hd), layoutAppAll]
    rfl

/-- The printed text is the specified one. -/
theorem printChunk_layoutApp (hr : RegistrySorted r) (hN : FieldNames r names) (c : Chunk) :
    ∀ ft level, Checkable r ft c → printChunk r level ft c = .val (layoutApp names ft level c) := by
  have hcat : be 4 idCAT.toNat = ascii "CAT " := by decide
  have hform : be 4 idFORM.toNat ≠ ascii "CAT " := by decide
  have hprop : be 4 idPROP.toNat ≠ ascii "CAT " := by decide
  have hgroup : ∀ name ty level subs, printGroupWith name ty level (.val (layoutAppAll names ty (level + 1) subs)) =
      .val (typeLine level name ty ++ line level (ascii "[") ++ layoutAppAll names ty (level + 1) subs ++
        line level (ascii "];")) := by
    intro name ty level subs
    simp only [printGroupWith, Out.val_bind, printGroupType_line, open_line, close_line]
  induction c using Chunk.ind with
  | raw id size data =>
    intro ft level hs
    cases hs with
    | raw hh _ hsz =>
      rw [printChunk, Chunk.id, (findChunkType_iff hr).mpr hh, printFields, hsz, printRawChunk_contents,
        printChunkWith_frame, layoutApp, Chunk.id, Chunk.size]
  | ext id size vals =>
    intro ft level hs
    cases hs with
    | ext hh _ hk _ =>
      rw [printChunk, Chunk.id, (findChunkType_iff hr).mpr hh, printFields, if_pos hk, printExt_lines,
        printChunkWith_frame, layoutApp, Chunk.id, Chunk.size, hN _ _ _ _ hh]
  | grp id size ty subs ih =>
    intro ft level hs
    have hb : (∀ c ∈ subs, Checkable r ty c) → printSubs r ty (level + 1) subs =
        .val (layoutAppAll names ty (level + 1) subs) := fun h =>
      printSubs_layoutApp fun c hc => ih c hc ty (level + 1) (h c hc)
    cases hs with
    | form hh hss =>
      rw [printChunk, Chunk.id, (findChunkType_iff hr).mpr hh, printFields, hb hss, hgroup, printChunkWith_frame,
        layoutApp, Chunk.id, Chunk.size, if_neg hform]
    | cat hh hss =>
      rw [printChunk, Chunk.id, (findChunkType_iff hr).mpr hh, printFields, hb hss, hgroup, printChunkWith_frame,
        layoutApp, Chunk.id, Chunk.size, if_pos hcat]
    | prop hh hss =>
      rw [printChunk, Chunk.id, (findChunkType_iff hr).mpr hh, printFields, hb hss, hgroup, printChunkWith_frame,
        layoutApp, Chunk.id, Chunk.size, if_neg hprop]
  | lst id size ty subs props ih ihp =>
    intro ft level hs
    cases hs with
    | list hh _ hss hsp =>
      have hb := printSubs_layoutApp (r := r) (names := names) (ty := ty) (level := level + 1) (cs := subs)
        fun c hc => ih c hc ty (level + 1) (hss c hc)
      have hp := printSubs_layoutApp (r := r) (names := names) (ty := ty) (level := level + 1) (cs := props)
        fun c hc => ihp c hc ty (level + 1) (hsp c hc)
      rw [printChunk, Chunk.id, (findChunkType_iff hr).mpr hh, printFields, hp, hb]
      simp only [Out.val_bind]
      rw [printChunkWith_frame, layoutApp, Chunk.id, Chunk.size, open_line, close_line, prop_line,
        printGroupType_line]

/-! ### The text determines the hierarchy -/

theorem digits_no_semicolon (n : Nat) : ∀ b ∈ digits n, b ≠ 59 := by
  rintro b hb rfl
  have := digits_range n _ hb
  revert this; decide

theorem toNat_val_inj {w : Nat} {x y : BitVec w} (h : digits x.toNat = digits y.toNat) : x = y :=
  BitVec.eq_of_toNat_eq (digits_inj h)

/-- The text of a value of a given kind determines it, and where it ends. -/
theorem fieldText_inj {v w : Val} (hk : v.kind = w.kind) {t t' : List Byte}
    (h : fieldText v ++ 59 :: t = fieldText w ++ 59 :: t') : v = w ∧ t = t' := by
  cases v <;> cases w <;> (try cases hk) <;> simp only [fieldText] at h
  · simp only [List.singleton_append, List.cons.injEq, true_and] at h
    exact ⟨by rw [h.1], h.2⟩
  all_goals
    first
    | obtain ⟨h1, h2⟩ := split_at (digits_no_semicolon _) (digits_no_semicolon _) h
      exact ⟨by rw [toNat_val_inj h1], h2⟩
    | obtain ⟨h1, h2⟩ := split_at (number_no_semicolon _) (number_no_semicolon _) h
      exact ⟨by rw [BitVec.eq_of_toInt_eq (number_inj h1)], h2⟩

theorem fieldLines_inj (level : Nat) : ∀ (ns : List String) (vs ws : List Val), vs.map Val.kind = ws.map Val.kind →
    vs.length = ns.length → ∀ {t t'}, fieldLines level ns vs ++ t = fieldLines level ns ws ++ t' → vs = ws ∧ t = t'
  | [], [], [], _, _, _, _, h => ⟨rfl, by simpa [fieldLines] using h⟩
  | n :: ns, v :: vs, w :: ws, hk, hl, t, t', h => by
    simp only [List.map_cons, List.cons.injEq] at hk
    simp only [List.length_cons, Nat.add_right_cancel_iff] at hl
    have hs : ascii ";" = [59] := by decide
    simp only [fieldLines, line, hs, List.append_assoc, List.singleton_append] at h
    have h1 := List.append_cancel_left (List.append_cancel_left (List.append_cancel_left h))
    obtain ⟨rfl, h2⟩ := fieldText_inj hk.1 h1
    obtain ⟨rfl, h3⟩ := fieldLines_inj level ns vs ws hk.2 hl (List.cons.inj h2).2
    exact ⟨rfl, h3⟩

theorem layoutApp_frame (ft : ID) (level : Nat) (c : Chunk) :
    ∃ b, layoutApp names ft level c = frame level c.id c.size b := by
  cases c <;> rw [layoutApp] <;> exact ⟨_, rfl⟩

theorem layoutApp_not_end {ft : ID} {level : Nat} {c : Chunk} {t t' : List Byte} :
    layoutApp names ft (level + 1) c ++ t ≠ line level (ascii "];") ++ t' := by
  obtain ⟨b, hb⟩ := layoutApp_frame (names := names) ft (level + 1) c
  have hs : spaces (level + 1) = spaces level ++ [32, 32] := by
    unfold spaces
    rw [show 2 * (level + 1) = 2 * level + 2 from by omega, ← List.replicate_append_replicate]
    rfl
  intro h
  have hk : ascii "];" = [93, 59] := by decide
  rw [hb] at h
  simp only [frame, line, hs, hk, List.append_assoc] at h
  have := List.append_cancel_left h
  simp at this

theorem layoutAppAll_inj {ft : ID} {level : Nat} : ∀ {cs ds : List Chunk},
    (∀ c ∈ cs, ∀ d ∈ ds, ∀ t t', layoutApp names ft (level + 1) c ++ t = layoutApp names ft (level + 1) d ++ t' →
      c = d ∧ t = t') → ∀ {t t'},
    layoutAppAll names ft (level + 1) cs ++ (line level (ascii "];") ++ t) =
      layoutAppAll names ft (level + 1) ds ++ (line level (ascii "];") ++ t') → cs = ds ∧ t = t'
  | [], [], _, _, _, h => by
    simp only [layoutAppAll, List.nil_append] at h
    exact ⟨rfl, List.append_cancel_left h⟩
  | [], d :: ds, _, _, _, h => by
    rw [layoutAppAll, layoutAppAll, List.nil_append, List.append_assoc] at h
    exact absurd h.symm layoutApp_not_end
  | c :: cs, [], _, _, _, h => by
    rw [layoutAppAll, layoutAppAll, List.nil_append, List.append_assoc] at h
    exact absurd h layoutApp_not_end
  | c :: cs, d :: ds, ih, _, _, h => by
    rw [layoutAppAll, layoutAppAll, List.append_assoc, List.append_assoc] at h
    obtain ⟨h1, h2⟩ := ih c List.mem_cons_self d List.mem_cons_self _ _ h
    obtain ⟨h3, h4⟩ := layoutAppAll_inj
      (fun c hc d hd => ih c (List.mem_cons_of_mem _ hc) d (List.mem_cons_of_mem _ hd)) h2
    exact ⟨by rw [h1, h3], h4⟩

theorem Spec.Checkable.handler {ft : ID} {c : Chunk} (h : Checkable r ft c) : ∃ k, HandlerFor r ft c.id k ∧
    match c with
    | .raw _ size data => k = .raw ∧ size = ((data.length : Nat) : Int)
    | .ext _ _ vals => ∃ fs chk, k = .ext fs chk ∧ vals.map Val.kind = fs.map Field.kind
    | .grp _ _ ty subs => (k = .form ∨ k = .cat ∨ k = .prop) ∧ ∀ c ∈ subs, Checkable r ty c
    | .lst _ _ ty subs props => k = .list ∧ (∀ c ∈ subs, Checkable r ty c) ∧ ∀ c ∈ props, Checkable r ty c := by
  cases h with
  | raw h1 _ h2 => exact ⟨_, h1, rfl, h2⟩
  | ext h1 _ h2 _ => exact ⟨_, h1, _, _, rfl, h2⟩
  | form h1 h2 => exact ⟨_, h1, .inl rfl, h2⟩
  | cat h1 h2 => exact ⟨_, h1, .inr (.inl rfl), h2⟩
  | prop h1 h2 => exact ⟨_, h1, .inr (.inr rfl), h2⟩
  | list h1 _ h2 h3 => exact ⟨_, h1, rfl, h2, h3⟩

/-- The text of a hierarchy determines it, and where it ends. -/
theorem layoutApp_inj (hr : RegistrySorted r) (hN : FieldNames r names) (c : Chunk) :
    ∀ (d : Chunk) (ft : ID) (level : Nat), Checkable r ft c → Checkable r ft d →
      ∀ t t', layoutApp names ft level c ++ t = layoutApp names ft level d ++ t' → c = d ∧ t = t' := by
  have same : ∀ {c d : Chunk} {ft : ID} {level : Nat} {t t' : List Byte},
      layoutApp names ft level c ++ t = layoutApp names ft level d ++ t' → ∀ {k k'}, HandlerFor r ft c.id k →
      HandlerFor r ft d.id k' → k = k' := by
    intro c d ft level t t' h k k' h1 h2
    obtain ⟨b, hb⟩ := layoutApp_frame (names := names) ft level c
    obtain ⟨b', hb'⟩ := layoutApp_frame (names := names) ft level d
    rw [hb, hb'] at h
    rw [(frame_inj h).1] at h1
    exact ((findChunkType_iff hr).mpr h1).symm.trans ((findChunkType_iff hr).mpr h2)
  induction c using Chunk.ind with
  | raw id size data =>
    intro d ft level hc hd t t' h
    obtain ⟨k, hk, rfl, hsz⟩ := hc.handler
    obtain ⟨k', hk', hd'⟩ := hd.handler
    obtain rfl := same h hk hk'
    cases d with
    | raw j m b =>
      rw [layoutApp, layoutApp] at h
      obtain ⟨rfl, rfl, t, t', h9, rfl, rfl⟩ := frame_inj h
      have e2 := hd'.2
      obtain ⟨rfl, h10⟩ := contents_inj (by omega) h9
      exact ⟨rfl, List.append_cancel_left h10⟩
    | ext => obtain ⟨_, _, h, _⟩ := hd'; cases h
    | grp => obtain ⟨h | h | h, _⟩ := hd' <;> cases h
    | lst => obtain ⟨h, _⟩ := hd'; cases h
  | ext id size vals =>
    intro d ft level hc hd t t' h
    obtain ⟨k, hk, fs, chk, rfl, hv⟩ := hc.handler
    obtain ⟨k', hk', hd'⟩ := hd.handler
    obtain rfl := same h hk hk'
    cases d with
    | ext j m b =>
      obtain ⟨fs', chk', he, hv'⟩ := hd'
      cases he
      have hn := hN _ _ _ _ hk
      rw [layoutApp, layoutApp] at h
      obtain ⟨rfl, rfl, t, t', h9, rfl, rfl⟩ := frame_inj h
      obtain ⟨rfl, h10⟩ := fieldLines_inj level _ _ _ (hv.trans hv'.symm) (by
        rw [show names ft id = _ from hn, List.length_map, ← List.length_map (f := Field.kind), ← hv, List.length_map]) h9
      exact ⟨rfl, List.append_cancel_left h10⟩
    | raw => obtain ⟨h, _⟩ := hd'; cases h
    | grp => obtain ⟨h | h | h, _⟩ := hd' <;> cases h
    | lst => obtain ⟨h, _⟩ := hd'; cases h
  | grp id size ty subs ih =>
    intro d ft level hc hd t t' h
    obtain ⟨k, hk, hg, hs⟩ := hc.handler
    obtain ⟨k', hk', hd'⟩ := hd.handler
    obtain rfl := same h hk hk'
    cases d with
    | grp j m uy uubs =>
      obtain ⟨-, hs'⟩ := hd'
      rw [layoutApp, layoutApp] at h
      obtain ⟨rfl, rfl, t, t', h9, rfl, rfl⟩ := frame_inj h
      simp only [List.append_assoc] at h9
      obtain ⟨rfl, h10⟩ := typeLine_inj h9
      obtain ⟨rfl, h11⟩ := layoutAppAll_inj
        (fun c hc d hd t t' => ih c hc d ty (level + 1) (hs c hc) (hs' d hd) t t')
        (List.append_cancel_left h10)
      exact ⟨rfl, List.append_cancel_left (List.append_cancel_left h11)⟩
    | raw => obtain ⟨rfl, _⟩ := hd'; rcases hg with h | h | h <;> cases h
    | ext => obtain ⟨_, _, rfl, _⟩ := hd'; rcases hg with h | h | h <;> cases h
    | lst => obtain ⟨rfl, _⟩ := hd'; rcases hg with h | h | h <;> cases h
  | lst id size ty subs props ih ihp =>
    intro d ft level hc hd t t' h
    obtain ⟨k, hk, rfl, hs, hp⟩ := hc.handler
    obtain ⟨k', hk', hd'⟩ := hd.handler
    obtain rfl := same h hk hk'
    cases d with
    | lst j m uy uubs rops =>
      obtain ⟨-, hs', hp'⟩ := hd'
      rw [layoutApp, layoutApp] at h
      obtain ⟨rfl, rfl, t, t', h9, rfl, rfl⟩ := frame_inj h
      simp only [List.append_assoc] at h9
      obtain ⟨rfl, h10⟩ := typeLine_inj h9
      obtain ⟨rfl, h11⟩ := layoutAppAll_inj
        (fun c hc d hd t t' => ihp c hc d ty (level + 1) (hp c hc) (hp' d hd) t t')
        (List.append_cancel_left h10)
      obtain ⟨rfl, h12⟩ := layoutAppAll_inj
        (fun c hc d hd t t' => ih c hc d ty (level + 1) (hs c hc) (hs' d hd) t t')
        (List.append_cancel_left h11)
      exact ⟨rfl, List.append_cancel_left (List.append_cancel_left h12)⟩
    | raw => obtain ⟨h, _⟩ := hd'; cases h
    | ext => obtain ⟨_, _, h, _⟩ := hd'; cases h
    | grp => obtain ⟨h | h | h, _⟩ := hd' <;> cases h

end Iff
