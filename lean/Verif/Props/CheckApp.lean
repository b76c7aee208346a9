import Verif.Proofs.CheckApp
import Verif.Proofs.TestApp
import Verif.Props.Check
/-
  C20, for the registries of applications: IFF_check decides conformance and the checks of the
  application's chunks.
-/
namespace Iff
open Spec

/-- C20 with a registry of an application: `IFF_check` returns TRUE if the hierarchy follows the rules and
the application's chunks in it satisfy the application's checks, and FALSE otherwise; in particular it
executes no undefined behaviour.  Missing, as in `C20_check_decides_partial`: `AcceptedFormType` is weaker
than the rule of doc/IFF.asc. -/
theorem C20_check_decides_registry_partial (e : Env) (he : e.Sane) (r : Registry) (hreg : RegistrySorted r)
    (c : Chunk) (hs : Checkable r 0 c) (hl : (encode c).length < 2147483648) (log : List Msg) :
    (ConformsWith r c → check e (some r) c log = .val (true, log)) ∧
    (¬ ConformsWith r c → ∃ log', check e (some r) c log = .val (false, log')) := by
  have hd : Decides (ConformsWith r c) (check e (some r) c) := by
    unfold check ConformsWith
    split
    · rename_i h
      exact decides_emit (by rintro ⟨h1 | h1 | h1, _⟩ <;> simp [h1] at h) _
    · rename_i h
      refine ((check_member_app he.wide hreg c 0 hs hl).decides).congr ⟨fun h' => ⟨?_, h'⟩, And.right⟩
      unfold Composite
      refine Classical.byContradiction fun hn => h ⟨fun a => hn (Or.inl a), fun a => hn (Or.inr (Or.inl a)),
        fun a => hn (Or.inr (Or.inr a))⟩
  rcases hd log with ⟨h1, h2⟩ | ⟨h1, l, h2, _⟩
  · exact ⟨fun _ => h2, fun h => absurd h1 h⟩
  · exact ⟨fun h => absurd h h1, fun _ => ⟨l, h2⟩⟩

/-- What the check of the tests' application amounts to: inside of a FORM of type TEST, a HELO chunk
conforms if and only if its `c` is at most 1024. -/
theorem hello_conforms (F : ID → Prop) (size : Int) (a b : BitVec 8) (c : BitVec 16) :
    ConformsApp testRegistry F idTEST (.ext idHELO size [.ubyte a, .ubyte b, .uword c]) ↔ c.toNat ≤ 1024 := by
  have hf : HandlerFor testRegistry idTEST idHELO helloType :=
    (findChunkType_iff testRegistry_sorted).mp rfl
  constructor
  · intro h
    cases h with
    | app _ h2 h3 =>
      have := ((findChunkType_iff testRegistry_sorted).mpr h2).symm.trans
        ((findChunkType_iff testRegistry_sorted).mpr hf)
      cases this
      exact of_decide_eq_true h3
  · exact fun h => .app (by unfold ValidId; decide) hf (decide_eq_true h)

end Iff
