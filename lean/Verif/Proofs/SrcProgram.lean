import Verif.Proofs.SrcMainRun
import Verif.Props.SrcTools
/-
  The tools from their start to their end, whatever their `main` makes of the command line.
-/
namespace Iff.Src

open Iff.Heap Iff.Spec

set_option maxRecDepth 4000

theorem pp_program (X : Cfg) (hX : X.Linked) (he : X.e.Sane) (hg : X.Grants) {main : Fn} {usage : List Byte} (command : String)
    (args : List String) (inp : List Byte) (room : Nat) (dis : Bool)
    (n : Option Arg)
    (h : PpDoes X main usage command args (launched X.e command args inp room) (.run (dis, n))) (hin : n ≠ none → inp = [])
    (hd : ∀ t s n, Finite s → X.e.mallocOk n = true → (X.pick t s n).isSome)
    (hA : ∀ k, k ≤ (sourceOf X inp n).length + 256 → X.e.mallocOk k = true)
    (hn : ∀ bs, (sourceOf X inp n).contents = some bs → NoNegativeGroups bs ∧ bs.length < 2147483648) :
    ∃ (status : Nat) (g' : CS), Runs X (main) (mainArgs args) (launched X.e command args inp room)
      (.int .int status) g' ∧ (∀ a, g'.heap a = none) ∧ g'.out = [] ∧
      ((∃ c, Printable X.e (sourceOf X inp n) dis c ∧ status = 0 ∧ g'.text = Spec.layout 0 c) ∨
       (¬ ∃ c, Printable X.e (sourceOf X inp n) dis c) ∧ status = 1 ∧ g'.text = []) := by
  obtain ⟨stk', h, -⟩ := h
  have hf : SourceArg X inp (sourceOf X inp n) (nameArg n) := by
    cases n with
    | none => exact .inr ⟨rfl, rfl⟩
    | some n => exact .inl ⟨rfl, hin nofun, rfl⟩
  have hlen : (sourceOf X inp n).length < 2147483648 := by
    unfold Source.length
    cases hc : (sourceOf X inp n).contents with
    | none => decide
    | some bs => exact (hn bs hc).2
  obtain ⟨status, g', h1, h2, h3, h4⟩ := C68_pp_prints X hX he hg { launched X.e command args inp room with stk := stk' }
    rfl (sourceOf X inp n) (nameArg n) hf dis 0 0 (fun _ => none) hd (by simpa using hA) rfl ⟨0, fun _ _ => rfl⟩
    (fun _ _ h => nomatch h) (by omega) hn []
  have hst : status < 2147483648 := by
    rcases h4 with ⟨_, _, h, _⟩ | ⟨_, h, _⟩ <;> omega
  refine ⟨status, _, h status g' hst h1, ?_, h3, h4⟩
  intro a
  show g'.heap a = none
  rw [h2]
  rfl

theorem sources_names {X : Cfg} {a : Nat} {stk : List Blk} {inputs : List Arg} :
    NamesAt (X.hold a 8 (namesBlk X.e inputs)) stk (.static 8) (sourcesOf X inputs) := by
  refine ⟨namesBlk X.e inputs, by simp [outside, Cfg.hold], ?_, fun i f h => ?_⟩
  · simp [sourcesOf, namesBlk, Cfg.hold]
  · simp only [sourcesOf, List.getElem?_map, Option.map_eq_some_iff] at h
    obtain ⟨n, hn, rfl⟩ := h
    simp only [namesBlk, hn]
    rfl

theorem sources_files {X : Cfg} {inputs : List Arg} : ∀ f ∈ sourcesOf X inputs, X.files f.name = f.contents := by
  intro f hf
  obtain ⟨n, -, rfl⟩ := List.mem_map.1 hf
  rfl

theorem length_total {files : List Source} : files.length * 8 ≤ total files := by
  unfold total
  induction files with
  | nil => exact Nat.le_refl _
  | cons f fs ih =>
    simp only [List.map_cons, List.sum_cons, List.length_cons]
    omega

theorem names_size {X : Cfg} {inputs : List Arg} : (namesBlk X.e inputs).size ≤ total (sourcesOf X inputs) := by
  have h := length_total (files := sourcesOf X inputs)
  have : inputs.length * (X.e.sizeBits / 8) ≤ inputs.length * 8 := Nat.mul_le_mul_left _ (by
    rcases X.word with h | h <;> rw [h] <;> decide)
  simp only [sourcesOf, List.length_map] at h
  exact Nat.le_trans this h

theorem join_program (X : Cfg) (hX : X.Linked) (hAl : X.Alone) (he : X.e.Sane) (hg : X.Grants) {main : Fn} {usage : List Byte}
    (command : String) (args : List String) (room : Nat) (out : Option Arg)
    (inputs : List Arg) (h2 : JoinDoes X main usage command args (launched X.e command args [] room) (.run (out, inputs))) (d : Dest)
    (hdest : DestArg X [] room d (nameArg out))
    (hd : ∀ t s n, Finite s → X.e.mallocOk n = true → (X.pick t s n).isSome)
    (hA : ∀ n < 2147483648, X.e.mallocOk n = true)
    (hL : total (sourcesOf X inputs) + 256 < 2147483648)
    (hn : ∀ f ∈ sourcesOf X inputs, ∀ bs, f.contents = some bs → NoNegativeGroups bs) :
    ∃ (status : Nat) (g' : CS), Runs X (main) (mainArgs args) (launched X.e command args [] room)
      (.int .int status) g' ∧ status ≤ 1 ∧ (status = 0 → ∀ a, g'.heap a = none) ∧ g'.text = [] ∧
      (((∃ f ∈ sourcesOf X inputs, ¬ ∃ c, Offers X.e f c) ∧ status = 1 ∧ g'.out = []) ∨
      ∃ (ins : List (List Byte × Chunk)) (ty : ID) (size : Int),
        (sourcesOf X inputs).map Source.contents = ins.map (fun i => some i.1) ∧ (∀ i ∈ ins, Accepts X.e i.1 i.2) ∧
        let cat := encode (.grp idCAT size ty (ins.map Prod.snd))
        (status = 0 ↔ d.opens = true ∧ cat.length ≤ d.cap + d.slack) ∧
        (d.opens = true → g'.out.take d.cap = cat.take d.cap) ∧ (d.opens = false → g'.out = [])) := by
  have hsz := names_size (X := X) (inputs := inputs)
  have hlen := length_total (files := sourcesOf X inputs)
  obtain ⟨a, hp⟩ := Option.isSome_iff_exists.1 (hd 0 (sizes fun _ => none) (namesBlk X.e inputs).size ⟨0, fun _ _ => rfl⟩
    (hA _ (by omega)))
  obtain ⟨stk', h⟩ := join_static hX hAl (fun _ => rfl) hp h2
  obtain ⟨status, g', h3, h4, ht, h5, h6⟩ := C68_join_joins (X.hold a 8 (namesBlk X.e inputs)) (hold_linked hX) he
    (hold_grants hg) { launched X.e command args [] room with stk := stk', tick := 1 } rfl (sourcesOf X inputs) (.static 8)
    sources_names sources_files (by omega) d (nameArg out) hdest 0 1 (fun _ => none) (hold_serves hd) hA rfl
    ⟨0, fun _ _ => rfl⟩ (fun _ _ h => nomatch h) (by omega) hn []
  simp only [sourcesOf, List.length_map] at h3
  obtain ⟨h7, stk2, h8⟩ := h status g' (by omega) h3
  refine ⟨status, _, h8, h4, ?_, ht, h6⟩
  intro hz a'
  show (g'.heap a').map _ = none
  rw [h5 hz]
  rfl

theorem join_leaks (X : Cfg) (hX : X.Linked) (hAl : X.Alone) (hg : X.Grants) {main : Fn} {usage : List Byte}
    (command : String) (args : List String) (room : Nat) (out : Option Arg)
    (inputs : List Arg) (h2 : JoinDoes X main usage command args (launched X.e command args [] room) (.run (out, inputs))) (d : Dest)
    (hdest : DestArg X [] room d (nameArg out))
    (hd : ∀ t s n, Finite s → X.e.mallocOk n = true → (X.pick t s n).isSome)
    (hA : ∀ n < 2147483648, X.e.mallocOk n = true)
    (hL : total (sourcesOf X inputs) + 256 < 2147483648) (log' : List Msg)
    (hread : ∀ f ∈ sourcesOf X inputs, Readable X.e f) (hop : d.opens = true)
    (h : join X.e (sourcesOf X inputs) d [] = .val ((1, none), log')) :
    ∃ (g' : CS) (x : Addr), Runs X (main) (mainArgs args) (launched X.e command args [] room) (.int .int 1) g' ∧
      g'.heap x ≠ none := by
  have hsz := names_size (X := X) (inputs := inputs)
  have hlen := length_total (files := sourcesOf X inputs)
  obtain ⟨a, hp⟩ := Option.isSome_iff_exists.1 (hd 0 (sizes fun _ => none) (namesBlk X.e inputs).size ⟨0, fun _ _ => rfl⟩
    (hA _ (by omega)))
  obtain ⟨stk', hs⟩ := join_static hX hAl (fun _ => rfl) hp h2
  obtain ⟨g', x, h3, -, h4⟩ := C68_join_leaks (X.hold a 8 (namesBlk X.e inputs)) (hold_linked hX)
    (hold_grants hg) { launched X.e command args [] room with stk := stk', tick := 1 } rfl (sourcesOf X inputs) (.static 8)
    sources_names sources_files (by omega) d (nameArg out) hdest 0 1 (fun _ => none) (hold_serves hd) hA rfl
    ⟨0, fun _ _ => rfl⟩ (fun _ _ h => nomatch h) (by omega) [] log' hread hop h
  simp only [sourcesOf, List.length_map] at h3
  obtain ⟨h7, stk2, h8⟩ := hs 1 g' (by decide) h3
  exact ⟨_, x, h8, by simpa using h4⟩

theorem join_refuses (X : Cfg) {main : Fn} {usage : List Byte} (command : String) (args : List String)
    (inp : List Byte) (room : Nat) (out : Option Arg) (inputs : List Arg)
    (h2 : JoinDoes X main usage command args (launched X.e command args inp room) (.run (out, inputs)))
    (hp : X.pick 0 (fun _ => none) (inputs.length * (X.e.sizeBits / 8)) = none) :
    Fails X (main) (mainArgs args) (launched X.e command args inp room) .nullDeref := by
  have hp' : X.pick (launched X.e command args inp room).tick (sizes (launched X.e command args inp room).heap)
    (namesBlk X.e inputs).size = none := hp
  simpa only [JoinDoes, hp'] using h2

end Iff.Src
