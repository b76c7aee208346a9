import Verif.Proofs.Ids
/-
  C03 IDs and 4-character strings correspond one to one, in alphabetical order.
  C04 IFF_checkId accepts exactly the IFF-85 identifiers.
  C05 IFF_checkFormType accepts exactly the legal form types (false; partial).
-/
namespace Iff
open Spec

/-- C03: `IFF_idToString` undoes `IFF_MAKEID`. -/
theorem C03_idToString_makeId (a b c d : Byte) : idToString (makeIdB a b c d) = [a, b, c, d] := by
  rw [makeIdB_eq, idToString_eq, append_extract32]

/-- C03: `IFF_MAKEID` undoes `IFF_idToString`. -/
theorem C03_makeId_idToString (id : ID) :
    ∃ a b c d, idToString id = [a, b, c, d] ∧ makeIdB a b c d = id := by
  refine ⟨_, _, _, _, idToString_eq id, ?_⟩
  rw [makeIdB_eq]; exact extract_append32 id

/-- C03: the characters of `IFF_idToString` are the base-256 digits of the ID. -/
theorem C03_characters (id : ID) : (idToString id).map BitVec.toNat = chars id :=
  idToString_toNat id

/-- C03: unsigned comparison of IDs is the lexicographic order of their characters. -/
theorem C03_order (x y : ID) :
    x.toNat < y.toNat ↔
      (idToString x).map BitVec.toNat < (idToString y).map BitVec.toNat := by
  rw [idToString_toNat, idToString_toNat]
  obtain ⟨a, b, c, d, ha, hb, hc, hd, hx, hx'⟩ := chars_digits x
  obtain ⟨a', b', c', d', ha', hb', hc', hd', hy, hy'⟩ := chars_digits y
  rw [hx', hy', hx, hy]
  simp only [List.cons_lt_cons_iff, List.not_lt_nil, and_false, or_false]
  omega

/-- Non-vacuity: 'CAT ' comes before 'FORM'. -/
example : idCAT.toNat < idFORM.toNat := by decide

/-- C04: `IFF_checkId` returns TRUE, without a diagnostic, iff the ID is valid; otherwise it returns
FALSE with exactly one diagnostic; for signed and unsigned plain `char` alike. -/
theorem C04_checkId (e : Env) (id : ID) (log : List Msg) :
    (ValidId id → checkId e id log = .val (true, log)) ∧
    (¬ ValidId id → ∃ m, checkId e id log = .val (false, log ++ [m])) := by
  rcases checkId_spec e id log with ⟨h1, h2⟩ | ⟨m, h1, h2⟩
  · exact ⟨fun _ => h1, fun h => absurd h2 h⟩
  · exact ⟨fun h => absurd h h2, fun _ => ⟨m, h1⟩⟩

/-- C04: the result does not depend on the platform (in particular not on the signedness of
`char`). -/
theorem C04_platform_independent (e e' : Env) (id : ID) (log : List Msg) :
    (checkId e id log = .val (true, log)) ↔ (checkId e' id log = .val (true, log)) := by
  have key : ∀ e : Env, checkId e id log = .val (true, log) ↔ ValidId id := by
    intro e
    rcases checkId_spec e id log with ⟨h1, h2⟩ | ⟨m, h1, h2⟩
    · exact ⟨fun _ => h2, fun _ => h1⟩
    · exact ⟨fun h => by rw [h1] at h; simp at h, fun h => absurd h h2⟩
  rw [key, key]

/-- Non-vacuity: both kinds of ID exist. -/
example : ValidId idFORM ∧ ¬ ValidId idEMPTY ∧ ¬ ValidId 0x464f52ff := by
  refine ⟨?_, ?_, ?_⟩ <;> unfold ValidId <;> decide

/-- C05 is false of the code: 'A!BC' contains a punctuation mark and is accepted. -/
theorem C05_false : ∃ id : ID, ¬ LegalFormType id ∧
    ∀ e log, checkFormType e id log = .val (true, log) := by
  refine ⟨makeId 'A' '!' 'B' 'C', ?_, ?_⟩
  · rintro ⟨_, h, _⟩
    have : chars (makeId 'A' '!' 'B' 'C') = [65, 33, 66, 67] := by decide
    rw [this] at h
    have h2 := (h 33 (by simp)).2
    apply h2
    unfold IsPunct IsLower
    decide
  · intro e log
    rcases checkFormType_spec e (makeId 'A' '!' 'B' 'C') log with ⟨h1, _⟩ | ⟨m, _, h2⟩
    · exact h1
    · exfalso
      apply h2
      refine ⟨?_, ?_, ?_⟩
      · unfold ValidId; decide
      · unfold IsLower; decide
      · rw [← reserved_iff]; decide

/-- C05, what holds (missing: punctuation marks other than the full stop are not rejected):
`IFF_checkFormType` returns TRUE, without a diagnostic, iff the ID is valid, has no lowercase letter
and no full stop, and is not reserved; otherwise FALSE with exactly one diagnostic. -/
theorem C05_checkFormType_partial (e : Env) (id : ID) (log : List Msg) :
    (AcceptedFormType id → checkFormType e id log = .val (true, log)) ∧
    (¬ AcceptedFormType id → ∃ m, checkFormType e id log = .val (false, log ++ [m])) := by
  rcases checkFormType_spec e id log with ⟨h1, h2⟩ | ⟨m, h1, h2⟩
  · exact ⟨fun _ => h1, fun h => absurd h2 h⟩
  · exact ⟨fun h => absurd h h2, fun _ => ⟨m, h1⟩⟩

/-- C05, the direction users rely on: no legal form type is rejected. -/
theorem C05_legal_accepted_partial (e : Env) (id : ID) (log : List Msg) (h : LegalFormType id) :
    checkFormType e id log = .val (true, log) := by
  apply (C05_checkFormType_partial e id log).1
  refine ⟨h.1, fun c hc => ⟨(h.2.1 c hc).1, ?_⟩, h.2.2⟩
  intro heq
  apply (h.2.1 c hc).2
  subst heq
  unfold IsPunct IsLower
  decide

/-- Non-vacuity: 'ILBM' is a legal form type; 'ilbm', 'FOR7' are not accepted. -/
example : LegalFormType (makeId 'I' 'L' 'B' 'M') ∧ ¬ AcceptedFormType (makeId 'i' 'l' 'b' 'm') ∧
    ¬ AcceptedFormType (makeId 'F' 'O' 'R' '7') := by
  refine ⟨⟨?_, ?_, ?_⟩, ?_, ?_⟩
  · unfold ValidId; decide
  · unfold IsPunct IsLower; decide
  · rw [← reserved_iff]; decide
  · intro h
    exact (h.2.1 105 (by decide)).1 (by unfold IsLower; decide)
  · intro h
    exact h.2.2 ((reserved_iff _).mp (by decide))

end Iff
