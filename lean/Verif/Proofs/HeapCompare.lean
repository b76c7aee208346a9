import Verif.Heap.Compare
import Verif.Proofs.HeapRef
import Verif.Proofs.HeapFree
/-
  Comparing hierarchies in memory is comparing the hierarchies.
-/
namespace Iff.Heap

open Spec

variable {m : Mem} {e : Env} {r : Registry} {α β : Type}

/-- In memory `m` the computation has the outcome `o` and changes nothing. -/
def Looks (m : Mem) (g : M HS α) (o : Out α) : Prop := ∀ s : HS, s.mem = m → g s = M.ofOut o s

theorem Looks.pure (a : α) : Looks m (Pure.pure a) (.val a) := fun _ _ => rfl

theorem Looks.find {g : M HS α} {a : α} {f : α → M HS β} {o : Out β} (hg : Finds m g a)
    (h : Looks m (f a) o) : Looks m (g >>= f) o := fun s hs => by
  rw [M.bind_apply, hg s hs]
  exact h s hs

theorem Looks.stumble {g : M HS α} {u : UB} {f : α → M HS β} (hg : Stumbles m g u) :
    Looks m (g >>= f) (.ub u) := fun s hs => by
  rw [M.bind_apply, hg s hs]
  rfl

theorem Looks.bind {g : M HS α} {f : α → M HS β} {o : Out α} {of : α → Out β} (h : Looks m g o)
    (h2 : ∀ a, o = .val a → Looks m (f a) (of a)) : Looks m (g >>= f) (o >>= of) := fun s hs => by
  rw [M.bind_apply, h s hs]
  cases o with
  | val a => exact h2 a rfl s hs
  | ub u => rfl
  | loop => rfl

theorem compareSubs_cons (ty : ID) (c d : Chunk) (cs ds : List Chunk) :
    Iff.compareSubs e r ty (c :: cs) (d :: ds) =
      (Iff.compareChunk e r ty c d >>= fun ok =>
        if ok then Iff.compareSubs e r ty cs ds else .val false) := by
  rw [Iff.compareSubs, Iff.compareChunk]
  split
  · rfl
  · rfl

/-- Comparing two PROPs, which need not be PROPs. -/
def compareAsGroup (e : Env) (r : Registry) (c d : Chunk) : Out Bool :=
  match c with
  | .grp _ _ ty subs => compareGroupWith ty subs.length (Iff.compareSubs e r ty subs) d
  | .lst _ _ ty subs _ => compareGroupWith ty subs.length (Iff.compareSubs e r ty subs) d
  | _ => .ub .wrongStruct

theorem compareProps_cons (c d : Chunk) (cs ds : List Chunk) :
    Iff.compareProps e r (c :: cs) (d :: ds) =
      (compareAsGroup e r c d >>= fun ok =>
        if ok then Iff.compareProps e r cs ds else .val false) := by
  rw [Iff.compareProps.eq_def]
  cases c <;> rfl

theorem looks_members {cc : ID → Addr → Addr → M HS Bool} {p q : Addr} {b b' : Block} {g g' : Grp}
    {ns ms : List Node} (hp : m p = some b) (hg : b.grp? = some g) (hq : m q = some b')
    (hg' : b'.grp? = some g') (harr : ArrayIn m g.arr (ns.map Node.addr))
    (harr' : ArrayIn m g'.arr (ms.map Node.addr))
    (hcc : ∀ n ∈ ns, ∀ n' ∈ ms, Looks m (cc g.ty n.addr n'.addr)
      (Iff.compareChunk e r g.ty n.chunk n'.chunk)) :
    ∀ (rest rest' pre pre' : List Node), ns = pre ++ rest → ms = pre' ++ rest' →
      pre.length = pre'.length → rest.length = rest'.length →
      Looks m (compareMembers cc p q rest.length pre.length)
        (Iff.compareSubs e r g.ty (Node.chunks rest) (Node.chunks rest'))
  | [], rest', pre, pre', _, _, _, _ => by
    simp only [List.length_nil, compareMembers, Node.chunks_nil, Iff.compareSubs]
    exact .pure _
  | _ :: _, [], _, _, _, _, _, h => by simp at h
  | n :: rest, n' :: rest', pre, pre', h1, h2, h3, h4 => by
    have hptr : Finds m (getPtr g.arr pre.length) n.addr := by
      refine finds_ptr harr ?_
      rw [h1]; simp
    have hptr' : Finds m (getPtr g'.arr pre.length) n'.addr := by
      refine finds_ptr harr' ?_
      rw [h2, h3]; simp
    simp only [List.length_cons, compareMembers, Node.chunks_cons, compareSubs_cons]
    refine .find (finds_grp hp hg) (.find hptr (.find (finds_grp hq hg') (.find hptr'
      (.bind (hcc n (by rw [h1]; simp) n' (by rw [h2]; simp)) fun ok _ => ?_))))
    cases ok
    · exact .pure _
    · have := looks_members hp hg hq hg' harr harr' hcc rest rest' (pre ++ [n]) (pre' ++ [n'])
        (by rw [h1]; simp) (by rw [h2]; simp) (by simp [h3]) (by simpa using h4)
      simpa using this

theorem looks_group {cc : ID → Addr → Addr → M HS Bool} {p : Addr} {b : Block} {g : Grp}
    {ns : List Node} {t' : Node} {par' : Addr} (hp : m p = some b) (hg : b.grp? = some g)
    (hlen : g.len = ns.length) (harr : ArrayIn m g.arr (ns.map Node.addr)) (hin' : In m par' t')
    (hcc : ∀ n ∈ ns, ∀ n' par', In m par' n' → Looks m (cc g.ty n.addr n'.addr)
      (Iff.compareChunk e r g.ty n.chunk n'.chunk)) :
    Looks m (compareGroup cc p t'.addr)
      (compareGroupWith g.ty ns.length (Iff.compareSubs e r g.ty (Node.chunks ns)) t'.chunk) := by
  have key : ∀ (q : Addr) (b' : Block) (g' : Grp) (ms : List Node), m q = some b' →
      b'.grp? = some g' → g'.len = ms.length → ArrayIn m g'.arr (ms.map Node.addr) →
      InAll m q ms →
      Looks m (compareGroup cc p q)
        (if g.ty = g'.ty ∧ ns.length = (Node.chunks ms).length then
          Iff.compareSubs e r g.ty (Node.chunks ns) (Node.chunks ms) else .val false) := by
    intro q b' g' ms hq hg' hlen' harr' hall
    refine .find (finds_grp hp hg) (.find (finds_grp hq hg') ?_)
    have hl : (Node.chunks ms).length = ms.length := by rw [Node.chunks_eq]; simp
    rw [hl, ← hlen, ← hlen']
    split
    · rename_i h
      rw [hlen]
      exact looks_members hp hg hq hg' harr harr'
        (fun n hn n' hn' => hcc n hn n' q (inAll_iff.mp hall n' hn')) ns ms [] [] rfl rfl rfl
        (by rw [← hlen, ← hlen']; exact h.2)
    · exact .pure _
  cases t' with
  | raw a d id size data =>
    simp only [In] at hin'
    exact .find (finds_grp hp hg) (.stumble (stumbles_grp hin'.1 rfl))
  | ext a id size vals =>
    simp only [In] at hin'
    exact .find (finds_grp hp hg) (.stumble (stumbles_grp hin' rfl))
  | grp a arr id size ty subs =>
    simp only [In] at hin'
    exact key _ _ _ _ hin'.1 rfl rfl hin'.2.1 hin'.2.2
  | lst a arr parr id size ty subs props =>
    simp only [In] at hin'
    exact key _ _ _ _ hin'.1 rfl rfl hin'.2.1 hin'.2.2.2.1

theorem looks_props {cc : ID → Addr → Addr → M HS Bool} {p q : Addr} {b b' : Block} {l l' : Lst}
    {ns ms : List Node} (hp : m p = some b) (hl : b.lst? = some l) (hq : m q = some b')
    (hl' : b'.lst? = some l') (harr : ArrayIn m l.parr (ns.map Node.addr))
    (harr' : ArrayIn m l'.parr (ms.map Node.addr))
    (hcc : ∀ n ∈ ns, ∀ n' ∈ ms, Looks m (compareGroup cc n.addr n'.addr)
      (compareAsGroup e r n.chunk n'.chunk)) :
    ∀ (rest rest' pre pre' : List Node), ns = pre ++ rest → ms = pre' ++ rest' →
      pre.length = pre'.length → rest.length = rest'.length →
      Looks m (compareProps cc p q rest.length pre.length)
        (Iff.compareProps e r (Node.chunks rest) (Node.chunks rest'))
  | [], rest', pre, pre', _, _, _, _ => by
    simp only [List.length_nil, compareProps, Node.chunks_nil, Iff.compareProps]
    exact .pure _
  | _ :: _, [], _, _, _, _, _, h => by simp at h
  | n :: rest, n' :: rest', pre, pre', h1, h2, h3, h4 => by
    have hptr : Finds m (getPtr l.parr pre.length) n.addr := by
      refine finds_ptr harr ?_
      rw [h1]; simp
    have hptr' : Finds m (getPtr l'.parr pre.length) n'.addr := by
      refine finds_ptr harr' ?_
      rw [h2, h3]; simp
    simp only [List.length_cons, compareProps, Node.chunks_cons, compareProps_cons]
    refine .find (finds_lst hp hl) (.find hptr (.find (finds_lst hq hl') (.find hptr'
      (.bind (hcc n (by rw [h1]; simp) n' (by rw [h2]; simp)) fun ok _ => ?_))))
    cases ok
    · exact .pure _
    · have := looks_props hp hl hq hl' harr harr' hcc rest rest' (pre ++ [n]) (pre' ++ [n'])
        (by rw [h1]; simp) (by rw [h2]; simp) (by simp [h3]) (by simpa using h4)
      simpa using this

theorem chunks_length (ns : List Node) : (Node.chunks ns).length = ns.length := by
  rw [Node.chunks_eq]; simp

/-- Comparing as groups, given how the members compare. -/
theorem looks_asGroup {cc : ID → Addr → Addr → M HS Bool} {t t' : Node} {par par' : Addr}
    (hin : In m par t) (hin' : In m par' t')
    (hcc : ∀ ty, ∀ n, depth n.chunk < depth t.chunk → ∀ par n' par', In m par n → In m par' n' →
      Looks m (cc ty n.addr n'.addr) (Iff.compareChunk e r ty n.chunk n'.chunk)) :
    Looks m (compareGroup cc t.addr t'.addr) (compareAsGroup e r t.chunk t'.chunk) := by
  cases t with
  | raw a d id size data =>
    simp only [In] at hin
    exact .stumble (stumbles_grp hin.1 rfl)
  | ext a id size vals =>
    simp only [In] at hin
    exact .stumble (stumbles_grp hin rfl)
  | grp a arr id size ty subs =>
    simp only [In] at hin
    simp only [Node.chunk, depth] at hcc
    have := looks_group (e := e) (r := r) (cc := cc) hin.1 rfl rfl hin.2.1 hin' fun n hn n' par' hn' =>
      hcc _ n (by
        have := depthAll_le (cs := Node.chunks subs) (Nat.le_refl _) n.chunk
          (by rw [Node.chunks_eq]; exact List.mem_map_of_mem hn)
        omega) a n' par' (inAll_iff.mp hin.2.2 n hn) hn'
    simpa only [Node.addr, Node.chunk, compareAsGroup, chunks_length] using this
  | lst a arr parr id size ty subs props =>
    simp only [In] at hin
    simp only [Node.chunk, depth] at hcc
    have := looks_group (e := e) (r := r) (cc := cc) hin.1 rfl rfl hin.2.1 hin' fun n hn n' par' hn' =>
      hcc _ n (by
        have := depthAll_le (cs := Node.chunks subs) (Nat.le_refl _) n.chunk
          (by rw [Node.chunks_eq]; exact List.mem_map_of_mem hn)
        omega) a n' par' (inAll_iff.mp hin.2.2.2.1 n hn) hn'
    simpa only [Node.addr, Node.chunk, compareAsGroup, chunks_length] using this

theorem looks_list {cc : ID → Addr → Addr → M HS Bool} {a arr parr : Addr} {id : ID} {size : Int}
    {ty : ID} {subs props : List Node} {t' : Node} {par par' : Addr}
    (hin : In m par (.lst a arr parr id size ty subs props)) (hin' : In m par' t')
    (hcc : ∀ ty, ∀ n, depth n.chunk < depth (Node.lst a arr parr id size ty subs props).chunk →
      ∀ par n' par', In m par n → In m par' n' →
      Looks m (cc ty n.addr n'.addr) (Iff.compareChunk e r ty n.chunk n'.chunk)) :
    Looks m (compareList cc a t'.addr) (do
      let props2 ← t'.chunk.asList
      if (Node.chunks props).length = props2.length then
        if ← Iff.compareProps e r (Node.chunks props) props2 then
          compareGroupWith ty (Node.chunks subs).length
            (Iff.compareSubs e r ty (Node.chunks subs)) t'.chunk
        else .val false
      else .val false) := by
  have hg := looks_asGroup hin hin' fun ty n hn => hcc ty n (by simpa only [Node.chunk, depth] using hn)
  have hin0 := hin
  simp only [In] at hin0
  obtain ⟨hp, harr, hparr, hsub, hprop⟩ := hin0
  cases t' with
  | raw a d id size data =>
    simp only [In] at hin'
    exact .find (finds_lst hp rfl) (.stumble (stumbles_lst hin'.1 rfl))
  | ext a id size vals =>
    simp only [In] at hin'
    exact .find (finds_lst hp rfl) (.stumble (stumbles_lst hin' rfl))
  | grp a arr id size ty subs =>
    simp only [In] at hin'
    exact .find (finds_lst hp rfl) (.stumble (stumbles_lst hin'.1 rfl))
  | lst a' arr' parr' id' size' ty' subs' props' =>
    have hin0 := hin'
    simp only [In] at hin0
    obtain ⟨hp', harr', hparr', hsub', hprop'⟩ := hin0
    refine .find (finds_lst hp rfl) (.find (finds_lst hp' rfl) ?_)
    show Looks m _ (if (Node.chunks props).length = (Node.chunks props').length then _ else _)
    rw [chunks_length, chunks_length]
    split
    · rename_i h
      refine .bind (looks_props hp rfl hp' rfl hparr hparr' (fun n hn n' hn' =>
        looks_asGroup (inAll_iff.mp hprop n hn) (inAll_iff.mp hprop' n' hn')
          fun ty x hx => hcc ty x ?_) props props' [] [] rfl rfl rfl h) fun ok _ => ?_
      · have := depthAll_le (cs := Node.chunks props) (Nat.le_refl _) n.chunk
          (by rw [Node.chunks_eq]; exact List.mem_map_of_mem hn)
        simp only [Node.chunk, depth]
        omega
      · cases ok
        · exact .pure _
        · exact hg
    · exact .pure _

theorem compareChunk_looks : ∀ (k : Nat) (t t' : Node) (ft : ID) (par par' : Addr),
    In m par t → In m par' t' → depth t.chunk ≤ k →
    Looks m (compareChunk e r k ft t.addr t'.addr) (Iff.compareChunk e r ft t.chunk t'.chunk) := by
  intro k
  induction k with
  | zero =>
    intro t _ _ _ _ _ _ hk
    cases t <;> simp [Node.chunk, depth] at hk
  | succ k ih =>
    intro t t' ft par par' hin hin' hk
    have hcc : ∀ ty, ∀ n, depth n.chunk < depth t.chunk → ∀ par n' par', In m par n → In m par' n' →
        Looks m (compareChunk e r k ty n.addr n'.addr) (Iff.compareChunk e r ty n.chunk n'.chunk) :=
      fun ty n hn par n' par' h h' => ih n n' ty par par' h h' (by omega)
    refine .find (finds_node hin) (.find (finds_node hin') ?_)
    unfold Iff.compareChunk
    split
    case isFalse => exact .pure _
    case isTrue h =>
    have hg := looks_asGroup hin hin' hcc
    cases t with
    | raw a d id size data =>
      have h0 := hin
      simp only [In] at h0
      simp only [Node.chunk, Chunk.id, Iff.compareFields, Node.addr]
      cases findChunkType r ft id with
      | raw =>
        cases t' with
        | raw a' d' id' size' data' =>
          have h0' := hin'
          simp only [In] at h0'
          refine .find (finds_raw h0.1) (.find (finds_raw h0'.1) (.find (finds_hdr h0.1 rfl) ?_))
          simp only [Node.chunk, Iff.compareRawChunk]
          by_cases h1 : toSize e size ≤ data.length
          · refine .find (finds_bytes h0.2 h1) ?_
            by_cases h2 : toSize e size ≤ data'.length
            · rw [if_pos ⟨h1, h2⟩]
              exact .find (finds_bytes h0'.2 h2) (.pure _)
            · rw [if_neg (by simp [h2])]
              exact .stumble (stumbles_bytes h0'.2 h2)
          · rw [if_neg (by simp [h1])]
            exact .stumble (stumbles_bytes h0.2 h1)
        | ext a' id' size' vals' =>
          simp only [In] at hin'
          exact .find (finds_raw h0.1) (.stumble (stumbles_raw hin' (by simp)))
        | grp a' arr' id' size' ty' subs' =>
          simp only [In] at hin'
          exact .find (finds_raw h0.1) (.stumble (stumbles_raw hin'.1 (by simp)))
        | lst a' arr' parr' id' size' ty' subs' props' =>
          simp only [In] at hin'
          exact .find (finds_raw h0.1) (.stumble (stumbles_raw hin'.1 (by simp)))
      | ext fields chk => exact .stumble (stumbles_ext' h0.1 (by simp))
      | list => exact .stumble (stumbles_lst h0.1 rfl)
      | _ => exact .stumble (stumbles_grp h0.1 rfl)
    | ext a id size vals =>
      have h0 := hin
      simp only [In] at h0
      simp only [Node.chunk, Chunk.id, Iff.compareFields, Node.addr]
      cases findChunkType r ft id with
      | raw => exact .stumble (stumbles_raw h0 (by simp))
      | list => exact .stumble (stumbles_lst h0 rfl)
      | ext fields chk =>
        by_cases h1 : vals.map Val.kind = fields.map Field.kind
        · refine .find (finds_ext h0 h1) ?_
          cases t' with
          | ext a' id' size' vals' =>
            have h0' := hin'
            simp only [In] at h0'
            simp only [Node.chunk]
            by_cases h2 : vals'.map Val.kind = fields.map Field.kind
            · rw [if_pos ⟨h1, h2⟩]
              exact .find (finds_ext h0' h2) (.pure _)
            · rw [if_neg (by simp [h2])]
              exact .stumble (stumbles_ext h0' h2)
          | raw a' d' id' size' data' =>
            simp only [In] at hin'
            exact .stumble (stumbles_ext' hin'.1 (by simp))
          | grp a' arr' id' size' ty' subs' =>
            simp only [In] at hin'
            exact .stumble (stumbles_ext' hin'.1 (by simp))
          | lst a' arr' parr' id' size' ty' subs' props' =>
            simp only [In] at hin'
            exact .stumble (stumbles_ext' hin'.1 (by simp))
        · cases t' with
          | ext a' id' size' vals' =>
            simp only [Node.chunk]
            rw [if_neg (by simp [h1])]
            exact .stumble (stumbles_ext h0 h1)
          | _ => exact .stumble (stumbles_ext h0 h1)
      | _ => exact .stumble (stumbles_grp h0 rfl)
    | grp a arr id size ty subs =>
      have h0 := hin
      simp only [In] at h0
      simp only [Node.chunk, Node.addr, compareAsGroup] at hg
      simp only [Node.chunk, Chunk.id, Iff.compareFields, Node.addr]
      cases findChunkType r ft id with
      | raw => exact .stumble (stumbles_raw h0.1 (by simp))
      | ext fields chk => exact .stumble (stumbles_ext' h0.1 (by simp))
      | list => exact .stumble (stumbles_lst h0.1 rfl)
      | _ => exact hg
    | lst a arr parr id size ty subs props =>
      have h0 := hin
      simp only [In] at h0
      simp only [Node.chunk, Node.addr, compareAsGroup] at hg
      simp only [Node.chunk, Chunk.id, Iff.compareFields, Node.addr]
      cases findChunkType r ft id with
      | raw => exact .stumble (stumbles_raw h0.1 (by simp))
      | ext fields chk => exact .stumble (stumbles_ext' h0.1 (by simp))
      | list => exact looks_list hin hin' hcc
      | _ => exact hg

end Iff.Heap
