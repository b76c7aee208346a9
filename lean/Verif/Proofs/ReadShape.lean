import Verif.Proofs.ReadFuel
import Verif.Spec.Shape
/-
  What the relation `Loose` says about number of chunks, nesting and data.
-/
namespace Iff
open Spec

theorem bites_cons (q : Bite) (ps : List Bite) : bites (q :: ps) = q.1 ++ bites ps := rfl

theorem nodesAll_filter (p : Chunk → Bool) (cs : List Chunk) :
    nodesAll (cs.filter p) + nodesAll (cs.filter fun c => ! p c) = nodesAll cs := by
  induction cs with
  | nil => rfl
  | cons c cs ih => cases h : p c <;> simp [h, nodesAll] <;> omega

theorem nodesAll_split (cs : List Chunk) :
    nodesAll (cs.filter fun c => c.id ≠ idPROP) + nodesAll (cs.filter fun c => c.id = idPROP) =
      nodesAll cs := by
  have := nodesAll_filter (fun c => decide (c.id ≠ idPROP)) cs
  simpa using this

theorem depthAll_filter (p : Chunk → Bool) (cs : List Chunk) :
    depthAll (cs.filter p) ≤ depthAll cs := by
  induction cs with
  | nil => simp
  | cons c cs ih => cases h : p c <;> simp [h, depthAll] <;> omega

theorem Loose.nodes {e : Env} {r : Registry} {ft : ID} {w : List Byte} {c : Chunk}
    (h : Loose e r ft w c) : 8 * nodes c ≤ w.length := by
  have all : ∀ (ps : List Bite), (∀ q ∈ ps, 8 * Spec.nodes q.2 ≤ q.1.length) →
      8 * nodesAll (ps.map Prod.snd) ≤ (bites ps).length := by
    intro ps
    induction ps with
    | nil => intro _; simp [nodesAll]
    | cons q ps ih =>
      intro h
      have h1 := h q List.mem_cons_self
      have h2 := ih (fun q hq => h q (List.mem_cons_of_mem _ hq))
      simp only [List.map_cons, nodesAll, bites_cons, List.length_append]
      omega
  induction h with
  | raw => simp only [Spec.nodes, List.length_append, bytes32_length]; omega
  | ext => simp only [Spec.nodes, List.length_append, bytes32_length]; omega
  | grp ps _ _ _ _ _ ih =>
    have := all ps ih
    simp only [Spec.nodes, List.length_append, bytes32_length]; omega
  | lst ps _ _ _ _ ih =>
    have := all ps ih
    have h2 := nodesAll_split (ps.map Prod.snd)
    simp only [Spec.nodes, List.length_append, bytes32_length]
    omega

theorem Loose.depth {e : Env} {r : Registry} {ft : ID} {w : List Byte} {c : Chunk}
    (h : Loose e r ft w c) : 12 * depth c ≤ w.length + 4 := by
  have all : ∀ (ps : List Bite), (∀ q ∈ ps, 12 * Spec.depth q.2 ≤ q.1.length + 4) →
      12 * depthAll (ps.map Prod.snd) ≤ (bites ps).length + 4 := by
    intro ps
    induction ps with
    | nil => intro _; simp [depthAll]
    | cons q ps ih =>
      intro h
      have h1 := h q List.mem_cons_self
      have h2 := ih (fun q hq => h q (List.mem_cons_of_mem _ hq))
      simp only [List.map_cons, depthAll, bites_cons, List.length_append]
      omega
  induction h with
  | raw => simp only [Spec.depth, List.length_append, bytes32_length]; omega
  | ext => simp only [Spec.depth, List.length_append, bytes32_length]; omega
  | grp ps _ _ _ _ _ ih =>
    have := all ps ih
    simp only [Spec.depth, List.length_append, bytes32_length]; omega
  | lst ps _ _ _ _ ih =>
    have := all ps ih
    have h2 := depthAll_filter (fun c => decide (c.id ≠ idPROP)) (ps.map Prod.snd)
    have h3 := depthAll_filter (fun c => decide (c.id = idPROP)) (ps.map Prod.snd)
    simp only [Spec.depth, List.length_append, bytes32_length]
    omega

theorem mem_bites {q : Bite} {ps : List Bite} (h : q ∈ ps) : q.1 <:+: bites ps := by
  induction ps with
  | nil => simp at h
  | cons p ps ih =>
    rw [bites_cons]
    rcases List.mem_cons.mp h with rfl | h
    · exact ⟨[], bites ps, by simp⟩
    · obtain ⟨a, b, hab⟩ := ih h
      exact ⟨p.1 ++ a, b, by rw [← hab]; simp⟩

/-- Every raw chunk of a hierarchy that has been read is there in the input. -/
theorem Loose.data {e : Env} {r : Registry} {ft : ID} {w : List Byte} {c : Chunk}
    (h : Loose e r ft w c) {id : ID} {size : Int} {data : List Byte}
    (hw : Within (.raw id size data) c) :
    size = ((data.length : Nat) : Int) ∧ header id size ++ data <:+: w := by
  induction h with
  | @raw ft id' data' p pn sz hh hs hp hm =>
    cases hw
    refine ⟨hs, [], p, ?_⟩
    have : sz.toInt.toNat = sz.toNat := by
      have := toInt_inInt sz
      rw [BitVec.toInt_eq_toNat_cond] at hs ⊢
      split <;> rename_i hlt
      · simp
      · rw [if_neg hlt] at hs
        have := sz.isLt
        omega
    simp only [header, this, be4_eq, List.nil_append, List.append_assoc]
  | ext => cases hw
  | @grp ft id' ty p pn h bp sz ps _ _ _ _ _ ih =>
    cases hw with
    | grp hc hw =>
      obtain ⟨q, hq, rfl⟩ := List.mem_map.mp hc
      obtain ⟨h1, h2⟩ := ih q hq hw
      refine ⟨h1, h2.trans ((mem_bites hq).trans ⟨bytes32 id' ++ bytes32 sz ++ bytes32 ty, p, ?_⟩)⟩
      simp
  | @lst ft id' ty p pn bp sz ps _ _ _ _ ih =>
    have key : ∀ c, c ∈ ps.map Prod.snd → Within (.raw id size data) c →
        size = ((data.length : Nat) : Int) ∧
        header id size ++ data <:+: bytes32 id' ++ bytes32 sz ++ (bytes32 ty ++ bites ps) ++ p := by
      intro c hc hw
      obtain ⟨q, hq, rfl⟩ := List.mem_map.mp hc
      obtain ⟨h1, h2⟩ := ih q hq hw
      refine ⟨h1, h2.trans ((mem_bites hq).trans ⟨bytes32 id' ++ bytes32 sz ++ bytes32 ty, p, ?_⟩)⟩
      simp
    cases hw with
    | sub hc hw => exact key _ (List.mem_filter.mp hc).1 hw
    | prop hc hw => exact key _ (List.mem_filter.mp hc).1 hw

end Iff
