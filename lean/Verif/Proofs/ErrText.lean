import Verif.Model.ErrText
import Verif.Spec.Diagnostics
import Verif.Proofs.Layout
import Verif.Proofs.Ids
/-
  Lemmas for C58: the text of the diagnostics.
-/
namespace Iff
open Spec

theorem charVal_byte (e : Env) (b : Byte) : BitVec.ofInt 8 (charVal e b) = b := by
  unfold charVal
  split
  · exact BitVec.ofInt_toInt
  · rw [BitVec.ofInt_natCast, BitVec.ofNat_toNat, BitVec.setWidth_eq]

theorem calls_prints (e : Env) (m : Msg) :
    m.calls = (m.prints e).map fun c => ⟨c.fmt, c.args.map CArg.type⟩ := by
  cases m <;> rfl

theorem printCalls_append (a b : List ErrPrint) : printCalls (a ++ b) = (do
    let x ← printCalls a
    let y ← printCalls b
    .val (x ++ y)) := by
  induction a with
  | nil => simp [printCalls]; cases printCalls b <;> rfl
  | cons c a ih =>
    rw [List.cons_append, printCalls, printCalls, ih]
    cases vprintf c.fmt.toList c.args with
    | val t =>
      simp only [Out.val_bind]
      cases printCalls a with
      | val x =>
        simp only [Out.val_bind]
        cases printCalls b <;> simp
      | ub u => rfl
      | loop => rfl
    | ub u => rfl
    | loop => rfl

theorem vprintf_char (v : Int) : vprintf "%c".toList [.int v] = .val [BitVec.ofInt 8 v] := rfl

/-- Characters that are no conversions go through. -/
theorem vprintf_skip : ∀ (p rest : List Char) (as : List CArg), '%' ∉ p →
    vprintf (p ++ rest) as = (do
      let r ← vprintf rest as
      .val (p.map (fun c => BitVec.ofNat 8 c.toNat) ++ r)) := by
  intro p
  induction p with
  | nil => intro rest as _; simp only [List.nil_append, List.map_nil]; cases vprintf rest as <;> rfl
  | cons c p ih =>
    intro rest as h
    have hc : c ≠ '%' := fun e => h (e ▸ List.mem_cons_self)
    rw [List.cons_append, vprintf, ih rest as (fun hm => h (List.mem_cons_of_mem _ hm))]
    · cases vprintf rest as <;> rfl
    all_goals (intros; simp_all)

theorem vprintf_plain (f : String) (h : '%' ∉ f.toList) : vprintf f.toList [] = .val (ascii f) := by
  have := vprintf_skip f.toList [] [] h
  rw [List.append_nil] at this
  rw [this, vprintf, Out.val_bind, List.append_nil]
  rfl

theorem idPrints_text (e : Env) (id : ID) : printCalls (idPrints e id) = .val (be 4 id.toNat) := by
  have h : ∀ bs : List Byte,
      printCalls (bs.map fun b => ⟨"%c", [.int (charVal e b)]⟩) = .val bs := by
    intro bs
    induction bs with
    | nil => rfl
    | cons b bs ih =>
      rw [List.map_cons, printCalls, ih, vprintf_char]
      simp only [Out.val_bind, charVal_byte, List.cons_append, List.nil_append]
  rw [idPrints, h, idToString_eq, be4_eq]

/-- A diagnostic with an ID. -/
theorem printCalls_id (e : Env) (f : ErrPrint) (id : ID) (g : ErrPrint) {a b : List Byte}
    (hf : vprintf f.fmt.toList f.args = .val a) (hg : vprintf g.fmt.toList g.args = .val b) :
    printCalls (f :: idPrints e id ++ [g]) = .val (a ++ (be 4 id.toNat ++ b)) := by
  rw [printCalls_append, printCalls, hf, idPrints_text]
  simp only [Out.val_bind, printCalls, hg, List.append_nil, List.append_assoc]

/-- A diagnostic of one call. -/
theorem printCalls_one (f : ErrPrint) {a : List Byte} (hf : vprintf f.fmt.toList f.args = .val a) :
    printCalls [f] = .val a := by
  simp only [printCalls, hf, Out.val_bind, List.append_nil]

/-- The beginnings of the diagnostics. -/
def heads : List String :=
  ["Error reading '", "Error writing '", "Unexpected end of file, while reading padding byte of '",
   "WARNING: Padding byte is non-zero!", "Cannot write padding byte of '", "Illegal character: '",
   "Spaces may not precede an ID!", "Error reading raw chunk body of chunk: '",
   "Error writing raw chunk body of chunk '", "Error writing chunk!", "Chunk size mismatch! ",
   "No lowercase characters or punctuation marks allowed in a form type ID!", "Form type: '",
   "ERROR: Element with chunk Id: '", "Sub form does not match contentsType of the CAT!",
   "Error reading chunk in list!", "Error writing PROP!", "ERROR: cannot open main chunk!",
   "WARNING: Trailing IFF contents found: ", "ERROR: cannot open file: ",
   "Not a valid IFF-85 file: First bytes should start with either: 'FORM', 'CAT ' or 'LIST'"]

/-- The position of the beginning of a diagnostic. -/
def kind : Msg → Nat
  | .readError _ _ => 0
  | .writeError _ _ => 1
  | .padEof _ => 2
  | .padNonZero => 3
  | .padWriteFailed _ => 4
  | .illegalChar _ => 5
  | .leadingSpace => 6
  | .rawRead _ => 7
  | .rawWrite _ => 8
  | .subWrite => 9
  | .sizeMismatch _ _ _ => 10
  | .formTypeChars => 11
  | .formTypeReserved _ => 12
  | .notInForm _ => 13
  | .notInCat _ => 13
  | .notInProp _ => 13
  | .contentsMismatch => 14
  | .listRead => 15
  | .propWrite => 16
  | .mainChunk => 17
  | .trailing _ => 18
  | .cannotOpen _ => 19
  | .notIff85 => 20
  | .skipped _ _ => 21
  | .fillerFailed _ _ => 21
  | .truncGroup _ => 21
  | .truncList _ => 21
  | .app => 21

/-- What follows the beginning of a diagnostic, up to the end of the line. -/
def tailOf : Msg → List Byte
  | .readError id a => be 4 id.toNat ++ (ascii "'." ++ cString a)
  | .writeError id a => be 4 id.toNat ++ (ascii "'." ++ cString a)
  | .padEof id => be 4 id.toNat ++ ascii "'"
  | .padWriteFailed id => be 4 id.toNat ++ ascii "'"
  | .illegalChar c => BitVec.ofInt 8 c :: ascii "' in ID!"
  | .rawRead id => be 4 id.toNat ++ ascii "'"
  | .rawWrite id => be 4 id.toNat ++ ascii "'"
  | .sizeMismatch id s b =>
    be 4 id.toNat ++ (ascii " size: " ++ (number s ++ (ascii ", while body has: " ++ number b)))
  | .formTypeReserved id => be 4 id.toNat ++ ascii "' not allowed!"
  | .notInForm id => be 4 id.toNat ++ ascii "' not allowed in FORM chunk!"
  | .notInCat id => be 4 id.toNat ++ ascii "' not allowed in CAT chunk!"
  | .notInProp id => be 4 id.toNat ++ ascii "' not allowed in PROP chunk!"
  | .trailing b => number b ++ ascii "!"
  | .cannotOpen n => cString n
  | _ => []

/-- The beginning of a diagnostic. -/
def headAt (k : Nat) : List Byte := ascii (heads.getD k "")

theorem vprintf_sizes (s b : Int) :
    vprintf " size: %d, while body has: %d\n".toList [.int s, .int b] =
      .val (ascii " size: " ++ (decimal s ++ (ascii ", while body has: " ++ (decimal b ++ [10])))) := by
  rfl

theorem vprintf_trailing (b : Int) :
    vprintf "WARNING: Trailing IFF contents found: %d!\n".toList [.int b] =
      .val (ascii "WARNING: Trailing IFF contents found: " ++ (decimal b ++ [33, 10])) := by
  rfl

theorem vprintf_open (n : List Byte) :
    vprintf "ERROR: cannot open file: %s\n".toList [.charPtr n] =
      .val (ascii "ERROR: cannot open file: " ++ (n ++ [10])) := by
  rfl

theorem vprintf_illegal (c : Int) :
    vprintf "Illegal character: '%c' in ID!\n".toList [.int c] =
      .val (ascii "Illegal character: '" ++ (BitVec.ofInt 8 c :: (ascii "' in ID!" ++ [10]))) := by
  rfl

theorem vprintf_attr (a : List Byte) :
    vprintf "'.%s\n".toList [.charPtr a] = .val (ascii "'." ++ (a ++ [10])) := by
  rfl

/-- A diagnostic of one call without arguments. -/
theorem text_plain (e : Env) {m : Msg} (f : String) (k : Nat) (hp : m.prints e = [⟨f, []⟩])
    (hk : kind m = k) (ht : tailOf m = []) (h : '%' ∉ f.toList) (hf : ascii f = headAt k ++ [10]) :
    printCalls (m.prints e) = .val (headAt (kind m) ++ (tailOf m ++ [10])) := by
  rw [hp, printCalls_one _ (vprintf_plain f h), hk, ht, hf]
  rfl

/-- A diagnostic with an ID and no other arguments. -/
theorem text_id (e : Env) {m : Msg} (f g : String) (id : ID) (k : Nat) (t : String)
    (hp : m.prints e = ⟨f, []⟩ :: idPrints e id ++ [⟨g, []⟩])
    (hk : kind m = k) (ht : tailOf m = be 4 id.toNat ++ ascii t) (h : '%' ∉ f.toList ∧ '%' ∉ g.toList)
    (hf : ascii f = headAt k ∧ ascii g = ascii t ++ [10]) :
    printCalls (m.prints e) = .val (headAt (kind m) ++ (tailOf m ++ [10])) := by
  rw [hp, printCalls_id e _ _ _ (vprintf_plain f h.1) (vprintf_plain g h.2), hk, ht, hf.1, hf.2,
    List.append_assoc]

theorem print_text (e : Env) (m : Msg) (h : Regular m) :
    printCalls (m.prints e) = .val (headAt (kind m) ++ (tailOf m ++ [10])) := by
  cases m with
  | skipped => exact h.elim
  | fillerFailed => exact h.elim
  | truncGroup => exact h.elim
  | truncList => exact h.elim
  | app => exact h.elim
  | sizeMismatch id s b =>
    rw [Msg.prints, printCalls_id e _ _ _ (vprintf_plain _ (by decide +kernel)) (vprintf_sizes s b),
      decimal_number, decimal_number, tailOf, show headAt (kind (.sizeMismatch id s b)) =
        ascii "Chunk size mismatch! " from rfl]
    simp only [List.append_assoc]
  | trailing b =>
    rw [Msg.prints, printCalls_one _ (vprintf_trailing b), decimal_number, tailOf,
      show headAt (kind (.trailing b)) = ascii "WARNING: Trailing IFF contents found: " from rfl,
      List.append_assoc, show ascii "!" ++ [10] = [33, 10] from rfl]
  | cannotOpen n =>
    rw [Msg.prints, printCalls_one _ (vprintf_open _), tailOf,
      show headAt (kind (.cannotOpen n)) = ascii "ERROR: cannot open file: " from rfl]
  | illegalChar c =>
    rw [Msg.prints, printCalls_one _ (vprintf_illegal c), tailOf,
      show headAt (kind (.illegalChar c)) = ascii "Illegal character: '" from rfl, List.cons_append]
  | readError id a =>
    rw [Msg.prints, printCalls_id e _ _ _ (vprintf_plain _ (by decide +kernel)) (vprintf_attr _), tailOf,
      show headAt (kind (.readError id a)) = ascii "Error reading '" from rfl]
    simp only [List.append_assoc]
  | writeError id a =>
    rw [Msg.prints, printCalls_id e _ _ _ (vprintf_plain _ (by decide +kernel)) (vprintf_attr _), tailOf,
      show headAt (kind (.writeError id a)) = ascii "Error writing '" from rfl]
    simp only [List.append_assoc]
  | padEof id => exact text_id e _ _ id 2 "'" rfl rfl rfl (by decide +kernel) (by decide +kernel)
  | padWriteFailed id => exact text_id e _ _ id 4 "'" rfl rfl rfl (by decide +kernel) (by decide +kernel)
  | rawRead id => exact text_id e _ _ id 7 "'" rfl rfl rfl (by decide +kernel) (by decide +kernel)
  | rawWrite id => exact text_id e _ _ id 8 "'" rfl rfl rfl (by decide +kernel) (by decide +kernel)
  | formTypeReserved id => exact text_id e _ _ id 12 "' not allowed!" rfl rfl rfl (by decide +kernel) (by decide +kernel)
  | notInForm id => exact text_id e _ _ id 13 "' not allowed in FORM chunk!" rfl rfl rfl (by decide +kernel) (by decide +kernel)
  | notInCat id => exact text_id e _ _ id 13 "' not allowed in CAT chunk!" rfl rfl rfl (by decide +kernel) (by decide +kernel)
  | notInProp id => exact text_id e _ _ id 13 "' not allowed in PROP chunk!" rfl rfl rfl (by decide +kernel) (by decide +kernel)
  | padNonZero => exact text_plain e _ 3 rfl rfl rfl (by decide +kernel) (by decide +kernel)
  | leadingSpace => exact text_plain e _ 6 rfl rfl rfl (by decide +kernel) (by decide +kernel)
  | subWrite => exact text_plain e _ 9 rfl rfl rfl (by decide +kernel) (by decide +kernel)
  | formTypeChars => exact text_plain e _ 11 rfl rfl rfl (by decide +kernel) (by decide +kernel)
  | contentsMismatch => exact text_plain e _ 14 rfl rfl rfl (by decide +kernel) (by decide +kernel)
  | listRead => exact text_plain e _ 15 rfl rfl rfl (by decide +kernel) (by decide +kernel)
  | propWrite => exact text_plain e _ 16 rfl rfl rfl (by decide +kernel) (by decide +kernel)
  | mainChunk => exact text_plain e _ 17 rfl rfl rfl (by decide +kernel) (by decide +kernel)
  | notIff85 => exact text_plain e _ 20 rfl rfl rfl (by decide +kernel) (by decide +kernel)

theorem heads_free : ∀ i < 21, ∀ j < 21, (headAt i).isPrefixOf (headAt j) = true → i = j := by
  decide +kernel

theorem heads_inj {i j : Nat} (hi : i < 21) (hj : j < 21) {x y : List Byte}
    (h : headAt i ++ x = headAt j ++ y) : i = j ∧ x = y := by
  have hp : headAt i <+: headAt j ∨ headAt j <+: headAt i :=
    List.prefix_or_prefix_of_prefix (List.prefix_append _ x) (h ▸ List.prefix_append _ y)
  have hij : i = j := by
    rcases hp with hp | hp
    · exact heads_free i hi j hj (List.isPrefixOf_iff_prefix.mpr hp)
    · exact (heads_free j hj i hi (List.isPrefixOf_iff_prefix.mpr hp)).symm
  subst hij
  exact ⟨rfl, List.append_cancel_left h⟩

theorem kind_lt {m : Msg} (h : Regular m) : kind m < 21 := by
  cases m <;> first | exact h.elim | (simp only [kind]; decide)

/-! ### Reading a diagnostic back -/

theorem number_no (x : Int) {b : Byte} (h : b.toNat < 45 ) : ∀ y ∈ number x, y ≠ b := by
  have hd : ∀ n, ∀ y ∈ digits n, y ≠ b := by
    rintro n y hy rfl
    have := (digits_range n _ hy).1
    omega
  intro y hy
  unfold number at hy
  split at hy
  · rcases List.mem_cons.mp hy with rfl | hy
    · rintro rfl; exact absurd h (by decide)
    · exact hd _ y hy
  · exact hd _ y hy

theorem id_split {a b : ID} {x y : List Byte} (h : be 4 a.toNat ++ x = be 4 b.toNat ++ y) :
    a = b ∧ x = y := by
  obtain ⟨h1, h2⟩ := List.append_inj h (by rw [be_length, be_length])
  exact ⟨be_id_inj h1, h2⟩

theorem cString_inj {s t : String} (h : cString s = cString t) : s = t := by
  have h1 : s.toByteArray.data.toList = t.toByteArray.data.toList :=
    List.map_inj_right (fun a b hab => UInt8.toBitVec_inj.mp hab) |>.mp h
  exact String.toByteArray_inj.mp (ByteArray.ext (Array.toList_inj.mp h1))

theorem cString_line {s : String} (h : (10 : UInt8) ∉ s.toByteArray.data.toList) :
    ∀ y ∈ cString s, y ≠ 10 := by
  rintro y hy rfl
  obtain ⟨b, hb, he⟩ := List.mem_map.mp hy
  have : b = 10 := UInt8.toBitVec_inj.mp he
  exact h (this ▸ hb)

theorem cString_split {s t : String} (hs : (10 : UInt8) ∉ s.toByteArray.data.toList)
    (ht : (10 : UInt8) ∉ t.toByteArray.data.toList) {x y : List Byte}
    (h : cString s ++ 10 :: x = cString t ++ 10 :: y) : s = t ∧ x = y := by
  obtain ⟨h1, h2⟩ := split_at (cString_line hs) (cString_line ht) h
  exact ⟨cString_inj h1, h2⟩

/-- What follows the beginning of a diagnostic determines it, for each beginning. -/
theorem tail_inj {e : Env} {m m' : Msg} (hr : Regular m) (hr' : Regular m') (hc : Clean e m)
    (hc' : Clean e m') (hk : kind m = kind m') {r r' : List Byte}
    (h : tailOf m ++ 10 :: r = tailOf m' ++ 10 :: r') : m = m' ∧ r = r' := by
  cases m with
  | skipped => exact hr.elim
  | fillerFailed => exact hr.elim
  | truncGroup => exact hr.elim
  | truncList => exact hr.elim
  | app => exact hr.elim
  | sizeMismatch id s b =>
    cases m' <;> simp only [kind, reduceCtorEq, Nat.reduceEqDiff] at hk
    simp only [tailOf, List.append_assoc] at h
    obtain ⟨rfl, g1⟩ := id_split h
    have g2 := List.append_cancel_left g1
    obtain ⟨h1, g3⟩ := split_at (x := 44) (number_no s (by decide)) (number_no _ (by decide)) g2
    have g4 := List.append_cancel_left (as := ascii " while body has: ") g3
    obtain ⟨h2, g5⟩ := split_at (number_no b (by decide)) (number_no _ (by decide)) g4
    rw [number_inj h1, number_inj h2]
    exact ⟨rfl, g5⟩
  | trailing b =>
    cases m' <;> simp only [kind, reduceCtorEq, Nat.reduceEqDiff] at hk
    simp only [tailOf, List.append_assoc] at h
    obtain ⟨h1, g⟩ := split_at (x := 33) (number_no b (by decide)) (number_no _ (by decide)) h
    rw [Int.ofNat_inj.mp (number_inj h1)]
    exact ⟨rfl, (List.cons.inj g).2⟩
  | cannotOpen n =>
    cases m' <;> simp only [kind, reduceCtorEq, Nat.reduceEqDiff] at hk
    obtain ⟨rfl, g⟩ := cString_split (hc.1 _ rfl) (hc'.1 _ rfl) h
    exact ⟨rfl, g⟩
  | illegalChar c =>
    cases m' <;> simp only [kind, reduceCtorEq, Nat.reduceEqDiff] at hk
    obtain ⟨b, rfl⟩ := hc.2 _ rfl
    obtain ⟨b', rfl⟩ := hc'.2 _ rfl
    simp only [tailOf, charVal_byte, List.cons_append] at h
    obtain ⟨h1, g⟩ := List.cons.inj h
    subst h1
    exact ⟨rfl, (List.cons.inj (List.append_cancel_left g)).2⟩
  | readError id a =>
    cases m' <;> simp only [kind, reduceCtorEq, Nat.reduceEqDiff] at hk
    simp only [tailOf, List.append_assoc] at h
    obtain ⟨rfl, g⟩ := id_split h
    obtain ⟨rfl, g'⟩ := cString_split (hc.1 _ rfl) (hc'.1 _ rfl) (List.append_cancel_left g)
    exact ⟨rfl, g'⟩
  | writeError id a =>
    cases m' <;> simp only [kind, reduceCtorEq, Nat.reduceEqDiff] at hk
    simp only [tailOf, List.append_assoc] at h
    obtain ⟨rfl, g⟩ := id_split h
    obtain ⟨rfl, g'⟩ := cString_split (hc.1 _ rfl) (hc'.1 _ rfl) (List.append_cancel_left g)
    exact ⟨rfl, g'⟩
  | padEof id =>
    cases m' <;> simp only [kind, reduceCtorEq, Nat.reduceEqDiff] at hk
    simp only [tailOf, List.append_assoc] at h
    obtain ⟨rfl, g⟩ := id_split h
    exact ⟨rfl, (List.cons.inj (List.append_cancel_left g)).2⟩
  | padWriteFailed id =>
    cases m' <;> simp only [kind, reduceCtorEq, Nat.reduceEqDiff] at hk
    simp only [tailOf, List.append_assoc] at h
    obtain ⟨rfl, g⟩ := id_split h
    exact ⟨rfl, (List.cons.inj (List.append_cancel_left g)).2⟩
  | rawRead id =>
    cases m' <;> simp only [kind, reduceCtorEq, Nat.reduceEqDiff] at hk
    simp only [tailOf, List.append_assoc] at h
    obtain ⟨rfl, g⟩ := id_split h
    exact ⟨rfl, (List.cons.inj (List.append_cancel_left g)).2⟩
  | rawWrite id =>
    cases m' <;> simp only [kind, reduceCtorEq, Nat.reduceEqDiff] at hk
    simp only [tailOf, List.append_assoc] at h
    obtain ⟨rfl, g⟩ := id_split h
    exact ⟨rfl, (List.cons.inj (List.append_cancel_left g)).2⟩
  | formTypeReserved id =>
    cases m' <;> simp only [kind, reduceCtorEq, Nat.reduceEqDiff] at hk
    simp only [tailOf, List.append_assoc] at h
    obtain ⟨rfl, g⟩ := id_split h
    exact ⟨rfl, (List.cons.inj (List.append_cancel_left g)).2⟩
  | notInForm id =>
    cases m' <;> simp only [kind, reduceCtorEq, Nat.reduceEqDiff] at hk <;>
      simp only [tailOf, List.append_assoc] at h <;> obtain ⟨rfl, g⟩ := id_split h
    · exact ⟨rfl, (List.cons.inj (List.append_cancel_left g)).2⟩
    · exact absurd (congrArg (·[17]?) g) (fun h => absurd (show some (70 : Byte) = some 67 from h) (by decide))
    · exact absurd (congrArg (·[17]?) g) (fun h => absurd (show some (70 : Byte) = some 80 from h) (by decide))
  | notInCat id =>
    cases m' <;> simp only [kind, reduceCtorEq, Nat.reduceEqDiff] at hk <;>
      simp only [tailOf, List.append_assoc] at h <;> obtain ⟨rfl, g⟩ := id_split h
    · exact absurd (congrArg (·[17]?) g) (fun h => absurd (show some (67 : Byte) = some 70 from h) (by decide))
    · exact ⟨rfl, (List.cons.inj (List.append_cancel_left g)).2⟩
    · exact absurd (congrArg (·[17]?) g) (fun h => absurd (show some (67 : Byte) = some 80 from h) (by decide))
  | notInProp id =>
    cases m' <;> simp only [kind, reduceCtorEq, Nat.reduceEqDiff] at hk <;>
      simp only [tailOf, List.append_assoc] at h <;> obtain ⟨rfl, g⟩ := id_split h
    · exact absurd (congrArg (·[17]?) g) (fun h => absurd (show some (80 : Byte) = some 70 from h) (by decide))
    · exact absurd (congrArg (·[17]?) g) (fun h => absurd (show some (80 : Byte) = some 67 from h) (by decide))
    · exact ⟨rfl, (List.cons.inj (List.append_cancel_left g)).2⟩
  | _ =>
    cases m' <;> simp only [kind, reduceCtorEq, Nat.reduceEqDiff] at hk
    exact ⟨rfl, (List.cons.inj h).2⟩

/-- The text of a diagnostic. -/
def textOf (m : Msg) : List Byte := headAt (kind m) ++ (tailOf m ++ [10])

theorem stderrText_eq (e : Env) : ∀ {log : List Msg}, (∀ m ∈ log, Regular m) →
    stderrText e log = .val (log.flatMap textOf) := by
  intro log
  induction log with
  | nil => intro _; rfl
  | cons m ms ih =>
    intro h
    rw [stderrText, print_text e m (h m List.mem_cons_self),
      ih (fun x hx => h x (List.mem_cons_of_mem _ hx))]
    rfl

theorem textOf_inj {e : Env} {m m' : Msg} (hr : Regular m) (hr' : Regular m') (hc : Clean e m)
    (hc' : Clean e m') {r r' : List Byte} (h : textOf m ++ r = textOf m' ++ r') : m = m' ∧ r = r' := by
  simp only [textOf, List.append_assoc, List.cons_append, List.nil_append] at h
  obtain ⟨hk, h⟩ := heads_inj (kind_lt hr) (kind_lt hr') h
  exact tail_inj hr hr' hc hc' hk h

theorem texts_inj {e : Env} : ∀ {log log' : List Msg}, (∀ m ∈ log, Regular m ∧ Clean e m) →
    (∀ m ∈ log', Regular m ∧ Clean e m) → log.flatMap textOf = log'.flatMap textOf → log = log'
  | [], [], _, _, _ => rfl
  | [], m :: ms, _, _, h => by
    rw [List.flatMap_cons, textOf] at h
    exact absurd (congrArg List.length h) (by simp)
  | m :: ms, [], _, _, h => by
    rw [List.flatMap_cons, textOf] at h
    exact absurd (congrArg List.length h) (by simp)
  | m :: ms, m' :: ms', hl, hl', h => by
    rw [List.flatMap_cons, List.flatMap_cons] at h
    have a := hl m List.mem_cons_self
    have b := hl' m' List.mem_cons_self
    obtain ⟨h1, h2⟩ := textOf_inj a.1 b.1 a.2 b.2 h
    rw [h1, texts_inj (fun x hx => hl x (List.mem_cons_of_mem _ hx))
      (fun x hx => hl' x (List.mem_cons_of_mem _ hx)) h2]

theorem bad_call {f : ErrPrint} {cs : List ErrPrint} (h : vprintf f.fmt.toList f.args = .ub .badArgument) :
    printCalls (f :: cs) = .ub .badArgument := by
  rw [printCalls, h]; rfl

theorem vprintf_ptr {p rest : List Char} (h : '%' ∉ p) :
    vprintf (p ++ '%' :: 'd' :: rest) [.intPtr] = .ub .badArgument := by
  rw [vprintf_skip p _ _ h]; rfl

theorem vprintf_long {p rest : List Char} (n : Int) (h : '%' ∉ p) :
    vprintf (p ++ '%' :: 'd' :: rest) [.long n] = .ub .badArgument := by
  rw [vprintf_skip p _ _ h]; rfl

theorem vprintf_sizeT {p rest : List Char} (n : Nat) (h : '%' ∉ p) :
    vprintf (p ++ '%' :: 'u' :: rest) [.sizeT n] = .ub .badArgument := by
  rw [vprintf_skip p _ _ h]; rfl

theorem vprintf_int_ptr {p q rest : List Char} (n : Int) (h : '%' ∉ p) (h' : '%' ∉ q) :
    vprintf (p ++ '%' :: 'd' :: (q ++ '%' :: 'd' :: rest)) [.int n, .intPtr] = .ub .badArgument := by
  rw [vprintf_skip p _ _ h, vprintf, vprintf_ptr h']; rfl

set_option maxRecDepth 4096 in
theorem bad_truncGroup (e : Env) (n : Int) :
    printCalls (Msg.prints e (.truncGroup n)) = .ub .badArgument := by
  refine bad_call ((congrArg (vprintf · _) (?_ : String.toList "WARNING: truncated group chunk! The size specifies: %d but the total amount of its sub chunks is: %d bytes. The parser may get confused!\n" = _)).trans (vprintf_int_ptr (p := "WARNING: truncated group chunk! The size specifies: ".toList)
    (q := " but the total amount of its sub chunks is: ".toList)
    (rest := " bytes. The parser may get confused!\n".toList) n (by decide +kernel) (by decide +kernel)))
  decide +kernel

set_option maxRecDepth 4096 in
theorem bad_truncList (e : Env) (n : Int) :
    printCalls (Msg.prints e (.truncList n)) = .ub .badArgument := by
  refine bad_call ((congrArg (vprintf · _) (?_ : String.toList "WARNING: truncated LIST chunk! The size specifies: %d but the total amount of its sub chunks is: %d bytes. The parser may get confused!\n" = _)).trans (vprintf_int_ptr (p := "WARNING: truncated LIST chunk! The size specifies: ".toList)
    (q := " but the total amount of its sub chunks is: ".toList)
    (rest := " bytes. The parser may get confused!\n".toList) n (by decide +kernel) (by decide +kernel)))
  decide +kernel

theorem bad_skipped (e : Env) (n : Int) (i : ID) :
    printCalls (Msg.prints e (.skipped n i)) = .ub .badArgument := by
  refine bad_call ((congrArg (vprintf · _) (?_ : String.toList "Cannot skip: %d bytes in data chunk: '" = _)).trans (vprintf_long (p := "Cannot skip: ".toList) (rest := " bytes in data chunk: '".toList) n
    (by decide +kernel)))
  decide +kernel

theorem bad_fillerFailed (e : Env) (n : Nat) (i : ID) :
    printCalls (Msg.prints e (.fillerFailed n i)) = .ub .badArgument := by
  refine bad_call ((congrArg (vprintf · _) (?_ : String.toList "Cannot write: %u zero bytes in data chunk: '" = _)).trans (vprintf_sizeT (p := "Cannot write: ".toList) (rest := " zero bytes in data chunk: '".toList) n
    (by decide +kernel)))
  decide +kernel

theorem regular_of_text {e : Env} {m : Msg} {t : List Byte} (hm : m ≠ .app)
    (h : printCalls (m.prints e) = .val t) : Regular m := by
  cases m with
  | truncGroup n => rw [bad_truncGroup] at h; simp at h
  | truncList n => rw [bad_truncList] at h; simp at h
  | skipped n i => rw [bad_skipped] at h; simp at h
  | fillerFailed n i => rw [bad_fillerFailed] at h; simp at h
  | app => exact absurd rfl hm
  | _ => trivial

theorem regular_of_texts {e : Env} : ∀ {log : List Msg} {t : List Byte}, (∀ m ∈ log, m ≠ .app) →
    stderrText e log = .val t → ∀ m ∈ log, Regular m := by
  intro log
  induction log with
  | nil => intro t _ _ m hm; simp at hm
  | cons m ms ih =>
    intro t hl h x hx
    rw [stderrText] at h
    cases h1 : printCalls (m.prints e) with
    | ub u => rw [h1] at h; simp at h
    | loop => rw [h1] at h; simp at h
    | val a =>
      rw [h1, Out.val_bind] at h
      cases h2 : stderrText e ms with
      | ub u => rw [h2] at h; simp at h
      | loop => rw [h2] at h; simp at h
      | val b =>
        rcases List.mem_cons.mp hx with rfl | hx
        · exact regular_of_text (hl _ List.mem_cons_self) h1
        · exact ih (fun y hy => hl y (List.mem_cons_of_mem _ hy)) h2 x hx

/-! ### Lines -/

theorem heads_line : ∀ k < 21, headAt k ≠ [] ∧ (10 : Byte) ∉ headAt k := by
  decide +kernel

theorem ascii_line : ∀ s ∈ ["'.", "'", "' in ID!", " size: ", ", while body has: ", "' not allowed!",
    "' not allowed in FORM chunk!", "' not allowed in CAT chunk!", "' not allowed in PROP chunk!", "!"],
    (10 : Byte) ∉ ascii s := by
  decide +kernel

theorem tail_line {m : Msg} (h : OneLine m) : (10 : Byte) ∉ tailOf m := by
  have num : ∀ x : Int, (10 : Byte) ∉ number x := fun x hx => number_no x (by decide) 10 hx rfl
  obtain ⟨h1, h2, h3⟩ := h
  have str : ∀ s, mentioned m = some s → (10 : Byte) ∉ cString s := fun s hs hx =>
    cString_line (h1 s hs) 10 hx rfl
  have app : ∀ {a b : List Byte}, (10 : Byte) ∉ a → (10 : Byte) ∉ b → (10 : Byte) ∉ a ++ b :=
    fun ha hb hx => (List.mem_append.mp hx).elim ha hb
  cases m with
  | readError id a => exact app (h2 _ rfl) (app (ascii_line _ (by simp)) (str _ rfl))
  | writeError id a => exact app (h2 _ rfl) (app (ascii_line _ (by simp)) (str _ rfl))
  | sizeMismatch id s b =>
    exact app (h2 _ rfl) (app (ascii_line _ (by simp)) (app (num _) (app (ascii_line _ (by simp)) (num _))))
  | illegalChar c =>
    intro hx
    rcases List.mem_cons.mp hx with hx | hx
    · exact h3 _ rfl hx.symm
    · exact ascii_line _ (by simp) hx
  | trailing b => exact app (num _) (ascii_line _ (by simp))
  | cannotOpen n => exact str _ rfl
  | padEof id => exact app (h2 _ rfl) (ascii_line _ (by simp))
  | padWriteFailed id => exact app (h2 _ rfl) (ascii_line _ (by simp))
  | rawRead id => exact app (h2 _ rfl) (ascii_line _ (by simp))
  | rawWrite id => exact app (h2 _ rfl) (ascii_line _ (by simp))
  | formTypeReserved id => exact app (h2 _ rfl) (ascii_line _ (by simp))
  | notInForm id => exact app (h2 _ rfl) (ascii_line _ (by simp))
  | notInCat id => exact app (h2 _ rfl) (ascii_line _ (by simp))
  | notInProp id => exact app (h2 _ rfl) (ascii_line _ (by simp))
  | _ => simp [tailOf]

end Iff
