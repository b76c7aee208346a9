import Verif.Proofs.Tools
/-
  C30 iffjoin output is valid and contains the inputs in order.
  C31 iffpp prints exactly the accepted files.
  C42 Option parsing of iffjoin uses the given output file.
  C48 iffpp prints the file named on its command line.
-/
namespace Iff
open Spec

/-! ### C30 -/

/-- The CAT with these members and a consistent size. -/
def catOf (ty : ID) (cs : List Chunk) : Chunk :=
  .grp idCAT (4 + ((encodeAll cs).length : Int)) ty cs

theorem encodeAll_spans {cs : List Chunk} (h : ∀ c ∈ cs, Consistent c) :
    ((encodeAll cs).length : Int) = spans cs ∧ (encodeAll cs).length % 2 = 0 := by
  induction cs with
  | nil => exact ⟨rfl, rfl⟩
  | cons c cs ih =>
    obtain ⟨h1, h2⟩ := ih fun d hd => h d (by simp [hd])
    have hl := (h c (by simp)).length
    rw [spans_cons, encodeAll, List.length_append]
    unfold span
    omega

theorem join_size {cs : List Chunk} {c : Chunk} (hc : Consistent c) :
    (4 + ((encodeAll cs).length : Int)) + (8 + c.size + c.size % 2) =
      4 + ((encodeAll (cs ++ [c])).length : Int) := by
  have hl := hc.length
  rw [encodeAll_append]
  simp only [encodeAll, List.append_nil, List.length_append]
  omega

theorem join_step {e : Env} (he : e.Sane) {ty : ID} {cs : List Chunk} {c : Chunk}
    (hc : Consistent c) (hid : Composite c.id) (hgt : ∃ t, c.groupType = .val t)
    (hfit : 12 + (encodeAll (cs ++ [c])).length < 2147483648) :
    ∃ ty', addAndUpdate e (catOf ty cs) c = .val (catOf ty' (cs ++ [c])) := by
  have hv : checkValidCATSubChunkId c.id = true := by
    unfold checkValidCATSubChunkId; unfold Composite at hid; simpa using hid
  obtain ⟨t, ht⟩ := hgt
  refine ⟨newContentsType cs.isEmpty ty t, ?_⟩
  have hr := hc.range
  have hsz := join_size (cs := cs) hc
  have hinc : incrementChunkSize e (4 + ((encodeAll cs).length : Int)) c.size =
      .val (4 + ((encodeAll (cs ++ [c])).length : Int)) := by
    rw [incrementChunkSize_ok e he.wide (by omega) hr.1 (by omega), hsz]
  have h1 : updateContentsType (catOf ty cs) c = .val (.grp idCAT (4 + ((encodeAll cs).length : Int))
      (newContentsType cs.isEmpty ty t) cs) := by
    unfold updateContentsType
    rw [if_pos hv, ht]
    rfl
  unfold addAndUpdate
  rw [h1, Out.val_bind, addToGroup, hinc, Out.val_bind, catOf]

theorem accepted_group {e : Env} (he : e.Sane) {bs : List Byte} {c : Chunk} (h : Accepts e bs c) :
    Composite c.id ∧ ∃ t, c.groupType = .val t := by
  obtain ⟨⟨s, hr⟩, l, hc⟩ := h
  have hid := check_composite hc
  exact ⟨hid, groupType_composite defaultRegistry_sorted default_groups
    (readFd_facts he hr).sound.dispatched hid⟩

theorem joinInputs_accepted {e : Env} (he : e.Sane) : ∀ (inputs : List (List Byte × Chunk))
    (files : List Source) (cs : List Chunk) (ty : ID) (log : List Msg),
    files.map Source.contents = inputs.map (fun i => some i.1) →
    (∀ i ∈ inputs, i.1.length < 2147483648 ∧ Accepts e i.1 i.2) →
    12 + (encodeAll (cs ++ inputs.map Prod.snd)).length < 2147483648 →
    Additions e createEmptyCAT cs (catOf ty cs) →
    ∃ ty' log', joinInputs e (catOf ty cs) files log =
        .val (some (catOf ty' (cs ++ inputs.map Prod.snd)), log') ∧
      Additions e createEmptyCAT (cs ++ inputs.map Prod.snd)
        (catOf ty' (cs ++ inputs.map Prod.snd)) := by
  intro inputs
  induction inputs with
  | nil =>
    intro files cs ty log hf _ _ ha
    cases files with
    | cons f fs => simp at hf
    | nil => exact ⟨ty, log, by simp [joinInputs], by simpa using ha⟩
  | cons i is ih =>
    intro files cs ty log hf hacc hfit ha
    cases files with
    | nil => simp at hf
    | cons f fs =>
      simp only [List.map_cons, List.cons.injEq] at hf
      obtain ⟨hf1, hf2⟩ := hf
      obtain ⟨hlen, hA⟩ := hacc i (by simp)
      have hassoc : cs ++ (i :: is).map Prod.snd = (cs ++ [i.2]) ++ is.map Prod.snd := by simp
      rw [hassoc] at hfit ⊢
      obtain ⟨w, s1, h1, h2, h3, h4⟩ := accepted he hlen hA
      obtain ⟨hid, hgt⟩ := accepted_group he hA
      obtain ⟨ty1, hstep⟩ := join_step (e := e) he (ty := ty) (cs := cs) (c := i.2)
        h3.facts.consistent hid hgt (by
          rw [encodeAll_append, List.length_append] at hfit; omega)
      obtain ⟨⟨s, hr⟩, l, hc⟩ := hA
      obtain ⟨ty', log', h5, h6⟩ := ih fs (cs ++ [i.2]) ty1 (log ++ s.log ++ l) hf2
        (fun j hj => hacc j (by simp [hj])) hfit (.add ha hstep)
      refine ⟨ty', log', ?_, h6⟩
      rw [joinInputs, M.bind_apply, hf1, readFile_eq, hr]
      simp only [M.bind_apply]
      rw [check_eq, hc]
      simp only [relogged, if_true, M.bind_apply, hstep, M.ofOut_val]
      exact h5

/-- C30, the destination cannot be opened: no run that ends reports success. -/
theorem C30_not_opened (e : Env) (files : List Source) (d : Dest) (ho : d.opens = false)
    (log log' : List Msg) (r : Nat × Option (List Byte)) (h : join e files d log = .val (r, log')) :
    r = (1, none) := by
  unfold join at h
  rw [M.bind_apply] at h
  cases hj : joinInputs e createEmptyCAT files log with
  | val x =>
    obtain ⟨c, l⟩ := x
    rw [hj] at h
    cases c with
    | none => cases h; rfl
    | some c =>
      simp only [M.bind_apply, writeFile, ho, Bool.false_eq_true, if_false] at h
      cases h; rfl
  | ub u => rw [hj] at h; cases h
  | loop => rw [hj] at h; cases h

/-- C30, all inputs valid: if every input is a file that `IFF_read` and `IFF_check` accept, the result
stays below 2 GiB and the destination (a file or the standard output) can be opened and has room,
then iffjoin exits with 0 and the destination holds a CAT with exactly the inputs as its members, in
order, which is again accepted; its contents type is the common type of the inputs or JJJJ. -/
theorem C30_joins_partial (e : Env) (he : e.Sane) (files : List Source)
    (inputs : List (List Byte × Chunk))
    (hfiles : files.map Source.contents = inputs.map (fun i => some i.1))
    (hacc : ∀ i ∈ inputs, i.1.length < 2147483648 ∧ Accepts e i.1 i.2)
    (hfit : 12 + (encodeAll (inputs.map Prod.snd)).length < 2147483648)
    (d : Dest) (ho : d.opens = true) (hroom : 12 + (encodeAll (inputs.map Prod.snd)).length ≤ d.cap)
    (log : List Msg) :
    ∃ ty size log', 
      join e files d log = .val ((0, some (encode (.grp idCAT size ty (inputs.map Prod.snd)))), log') ∧
      Accepts e (encode (.grp idCAT size ty (inputs.map Prod.snd)))
        (.grp idCAT size ty (inputs.map Prod.snd)) ∧
      Conforms (.grp idCAT size ty (inputs.map Prod.snd)) ∧
      (inputs ≠ [] → (∀ t, (∀ i ∈ inputs, HasType t i.2) → ty = t) ∧
        ((¬ ∃ t, ∀ i ∈ inputs, HasType t i.2) → ty = idJJJJ)) := by
  have hstart : Additions e createEmptyCAT [] (catOf idJJJJ []) := .start
  obtain ⟨ty, log1, h1, h2⟩ := joinInputs_accepted he inputs files [] idJJJJ log hfiles hacc
    (by simpa using hfit) hstart
  rw [List.nil_append] at h1 h2
  refine ⟨ty, 4 + ((encodeAll (inputs.map Prod.snd)).length : Int), log1, ?_⟩
  have hcs : ∀ c ∈ inputs.map Prod.snd, ∃ bs, bs.length < 2147483648 ∧ Accepts e bs c := by
    intro c hc
    obtain ⟨i, hi, rfl⟩ := List.mem_map.mp hc
    exact ⟨i.1, hacc i hi⟩
  have hfacts : ∀ c ∈ inputs.map Prod.snd, (∃ w, Encodes False w c) ∧ Conforms c := by
    intro c hc
    obtain ⟨bs, hl, hA⟩ := hcs c hc
    obtain ⟨w, s1, h1, h2, h3, h4⟩ := accepted he hl hA
    exact ⟨⟨w, h3⟩, h4⟩
  have htype : inputs ≠ [] → (∀ t, (∀ i ∈ inputs, HasType t i.2) → ty = t) ∧
        ((¬ ∃ t, ∀ i ∈ inputs, HasType t i.2) → ty = idJJJJ) := by
    intro hne
    have hmem : ∀ t, (∀ c ∈ inputs.map Prod.snd, HasType t c) ↔ (∀ i ∈ inputs, HasType t i.2) := by
      intro t; simp only [List.mem_map, forall_exists_index, and_imp, forall_apply_eq_imp_iff₂]
    obtain ⟨h3, h4⟩ := C28_contents_type e createEmptyCAT ⟨_, rfl⟩ rfl _ _ h2
      (fun c hc => (hfacts c hc).2.1) (by simpa using hne)
    simp only [catOf, Chunk.groupType, Out.val.injEq, hmem] at h3 h4
    exact ⟨h3, h4⟩
  have hcons : Consistent (catOf ty (inputs.map Prod.snd)) := by
    refine .grp rfl (by omega) fun c hc => ?_
    obtain ⟨⟨w, hE⟩, _⟩ := hfacts c hc
    exact hE.facts.consistent
  have hstd : Standard (catOf ty (inputs.map Prod.snd)) := by
    refine .grp (Or.inr (Or.inl rfl)) fun c hc => ?_
    obtain ⟨⟨w, hE⟩, _⟩ := hfacts c hc
    exact hE.facts.standard
  have hsplit : ListsSplit (catOf ty (inputs.map Prod.snd)) := by
    refine .grp fun c hc => ?_
    obtain ⟨⟨w, hE⟩, _⟩ := hfacts c hc
    exact hE.facts.split
  have hlen : (encode (catOf ty (inputs.map Prod.snd))).length =
      12 + (encodeAll (inputs.map Prod.snd)).length := by
    have := hcons.length
    have h4 := (encodeAll_spans (cs := inputs.map Prod.snd) (fun c hc => by
      obtain ⟨⟨w, hE⟩, _⟩ := hfacts c hc
      exact hE.facts.consistent)).2
    simp only [catOf, Chunk.size] at this
    simp only [catOf]
    omega
  have hconf : Conforms (catOf ty (inputs.map Prod.snd)) := by
    refine ⟨Or.inr (Or.inl rfl), ?_⟩
    have hvalid : ∀ c ∈ inputs.map Prod.snd, ∀ t, HasType t c → ValidId t := by
      intro c hc t ht
      obtain ⟨_, hco, hby⟩ := hfacts c hc
      cases hby with
      | data => cases ht
      | form h => cases ht; exact h.1
      | prop h => cases ht; exact h.1
      | cat h => cases ht; exact h
      | list h => cases ht; exact h
    have hJ : ValidId idJJJJ := by unfold ValidId; decide
    have hty : ValidId ty ∧ (ty = idJJJJ ∨ ∀ c ∈ inputs.map Prod.snd, HasType ty c) := by
      by_cases hne : inputs = []
      · subst hne
        cases files with
        | cons f fs => simp at hfiles
        | nil =>
          simp only [joinInputs, M.pure_apply, Out.val.injEq, Prod.mk.injEq, Option.some.injEq,
            catOf, List.map_nil, Chunk.grp.injEq, true_and, and_true] at h1
          rw [← h1.1]
          exact ⟨hJ, Or.inl rfl⟩
      · obtain ⟨h3, h4⟩ := htype hne
        by_cases hcom : ∃ t, ∀ i ∈ inputs, HasType t i.2
        · obtain ⟨t, hcom⟩ := hcom
          obtain rfl := h3 t hcom
          have hcom' : ∀ c ∈ inputs.map Prod.snd, HasType ty c := by
            intro c hc
            obtain ⟨i, hi, rfl⟩ := List.mem_map.mp hc
            exact hcom i hi
          refine ⟨?_, Or.inr hcom'⟩
          cases inputs with
          | nil => exact absurd rfl hne
          | cons i is => exact hvalid i.2 (by simp) ty (hcom' _ (by simp))
        · rw [h4 hcom]; exact ⟨hJ, Or.inl rfl⟩
    exact .cat hty.1 (fun c hc => (hfacts c hc).2.1) hty.2 (by
        rw [(encodeAll_spans (cs := inputs.map Prod.snd) fun c hc => by
          obtain ⟨⟨w, hE⟩, _⟩ := hfacts c hc
          exact hE.facts.consistent).1]) (fun c hc => (hfacts c hc).2.2)
  refine ⟨?_, ⟨?_, [], ?_⟩, hconf, htype⟩
  · have hw := C09_write_encodes_default e he _ hcons hstd ⟨[], d.cap + d.slack, log1⟩
      (by simp only; omega)
    unfold join
    rw [M.bind_apply]
    have h1' : joinInputs e createEmptyCAT files log =
      .val (some (catOf ty (inputs.map Prod.snd)), log1) := h1
    rw [h1']
    simp only [M.bind_apply]
    unfold writeFile
    rw [if_pos ho, hw]
    simp only [M.pure_apply, if_true, List.nil_append]
    rw [List.take_of_length_le (by omega)]
    rfl
  · have hload := loadable_standard e hstd hsplit 0 (fun id size data hw => by
      cases hw with
      | grp hm hw =>
        obtain ⟨bs, hl, hA⟩ := hcs _ hm
        obtain ⟨w, s1, h3, h4, _⟩ := accepted he hl hA
        obtain ⟨w', hw', hL⟩ := (read_loose he _).1 _ _ _ _ h4
        exact hL.malloc hw)
    have hr := (wire_encode e defaultRegistry_sorted _ 0 hcons hload).reads he.wide
      ((encode (catOf ty (inputs.map Prod.snd))).length + 4) [] [] (by omega)
    rw [List.append_nil] at hr
    exact ⟨_, readFd_of_chunk (reg := none) (s := ⟨encode (catOf ty (inputs.map Prod.snd)), []⟩) hr⟩
  · exact (C20_check_decides_partial e he _ hstd (rawSizes_of_consistent hcons)
      (propArrays_of_split hsplit) (by omega) []).1 hconf

theorem joinInputs_some {e : Env} : ∀ {files : List Source} {cat cat' : Chunk} {log log' : List Msg},
    joinInputs e cat files log = .val (some cat', log') →
    ∀ f ∈ files, ∃ bs c, f.contents = some bs ∧ Accepts e bs c := by
  intro files
  induction files with
  | nil => intro _ _ _ _ _ f hf; cases hf
  | cons g gs ih =>
    intro cat cat' log log' h
    rw [joinInputs, M.bind_apply] at h
    cases hr : readFile e none g.name g.contents log with
    | ub u => rw [hr] at h; cases h
    | loop => rw [hr] at h; cases h
    | val x =>
      obtain ⟨oc, l1⟩ := x
      rw [hr] at h
      cases oc with
      | none => simp at h
      | some c =>
        simp only [M.bind_apply] at h
        cases hc : check e none c l1 with
        | ub u => rw [hc] at h; cases h
        | loop => rw [hc] at h; cases h
        | val y =>
          obtain ⟨b, l2⟩ := y
          rw [hc] at h
          cases b with
          | false => simp at h
          | true =>
            simp only [if_true, M.bind_apply] at h
            cases ha : addAndUpdate e cat c with
            | ub u => rw [ha] at h; cases h
            | loop => rw [ha] at h; cases h
            | val cat1 =>
              rw [ha] at h
              intro f hf
              rcases List.mem_cons.mp hf with rfl | hf
              · obtain ⟨bs, s, h1, h2⟩ := readFile_val hr
                exact ⟨bs, c, h1, ⟨s, h2⟩, check_val hc⟩
              · exact ih h f hf

/-- C30, some input unreadable or invalid: whenever iffjoin comes to an end it has exited with 1 and
has not opened the output file.  (For inputs of any length and any size of the result.) -/
theorem C30_rejects (e : Env) (files : List Source) (d : Dest) (log log' : List Msg) (status : Nat)
    (out : Option (List Byte)) (f : Source) (hf : f ∈ files)
    (hbad : ¬ ∃ bs c, f.contents = some bs ∧ Accepts e bs c)
    (h : join e files d log = .val ((status, out), log')) : status = 1 ∧ out = none := by
  unfold join at h
  rw [M.bind_apply] at h
  cases hj : joinInputs e createEmptyCAT files log with
  | ub u => rw [hj] at h; cases h
  | loop => rw [hj] at h; cases h
  | val x =>
    obtain ⟨oc, l1⟩ := x
    cases oc with
    | some cat => exact absurd (joinInputs_some hj f hf) hbad
    | none =>
      rw [hj] at h
      simp only [M.pure_apply, Out.val.injEq, Prod.mk.injEq] at h
      exact ⟨h.1.1.symm, h.1.2.symm⟩

/-- What the concatenation looks like between two inputs. -/
def Joined (cat : Chunk) : Prop :=
  ∃ size ty cs, cat = .grp idCAT size ty cs ∧ ∀ c ∈ cs, ReadFacts c

theorem fine_addAndUpdate {e : Env} {cat c : Chunk} (hj : Joined cat) (hc : ReadFacts c)
    (hid : Composite c.id) :
    Fine (addAndUpdate e cat c) ∧ ∀ cat', addAndUpdate e cat c = .val cat' → Joined cat' := by
  obtain ⟨size, ty, cs, rfl, hcs⟩ := hj
  obtain ⟨t, ht⟩ := groupType_composite defaultRegistry_sorted default_groups hc.sound.dispatched hid
  have hv : checkValidCATSubChunkId c.id = true := by
    unfold checkValidCATSubChunkId; unfold Composite at hid; simpa using hid
  have h1 : updateContentsType (.grp idCAT size ty cs) c = .val (.grp idCAT size
      (newContentsType cs.isEmpty ty t) cs) := by
    unfold updateContentsType
    rw [if_pos hv, ht]
    rfl
  have h2 : addAndUpdate e (.grp idCAT size ty cs) c = (incrementChunkSize e size c.size >>=
      fun size' => .val (.grp idCAT size' (newContentsType cs.isEmpty ty t) (cs ++ [c]))) := by
    unfold addAndUpdate
    rw [h1, Out.val_bind, addToGroup]
  have hf := fine_increment e size c.size ()
  rw [h2]
  cases hi : incrementChunkSize e size c.size with
  | val x =>
    refine ⟨Fine.val _, fun cat' h => ?_⟩
    rw [Out.val_bind, Out.val.injEq] at h
    subst h
    refine ⟨_, _, _, rfl, fun d hd => ?_⟩
    rcases List.mem_append.mp hd with hd | hd
    · exact hcs d hd
    · simp only [List.mem_singleton] at hd; rw [hd]; exact hc
  | ub u =>
    rw [hi] at hf
    refine ⟨⟨by simp, fun v hv => ?_⟩, by simp⟩
    simp only [Out.ub_bind, Out.ub.injEq] at hv
    subst hv
    exact hf.2 u rfl
  | loop => rw [hi] at hf; exact absurd rfl hf.1

theorem fine_joinInputs {e : Env} (he : e.Sane) : ∀ (files : List Source) (cat : Chunk)
    (log : List Msg), Joined cat → Fine (joinInputs e cat files log) ∧
      ∀ cat' log', joinInputs e cat files log = .val (some cat', log') → Joined cat' := by
  intro files
  induction files with
  | nil =>
    intro cat log hj
    refine ⟨fine_pure _ _, fun cat' log' h => ?_⟩
    simp only [joinInputs, M.pure_apply, Out.val.injEq, Prod.mk.injEq, Option.some.injEq] at h
    rw [← h.1]; exact hj
  | cons g gs ih =>
    intro cat log hj
    have hfr := fine_readFile he g log
    rw [joinInputs, M.bind_apply]
    cases hr : readFile e none g.name g.contents log with
    | ub u => rw [hr] at hfr; exact ⟨⟨by simp, by simpa using hfr.2⟩, by simp⟩
    | loop => rw [hr] at hfr; exact absurd rfl hfr.1
    | val x =>
      obtain ⟨oc, l1⟩ := x
      cases oc with
      | none => exact ⟨Fine.val _, by simp⟩
      | some c =>
        obtain ⟨bs, s, _, h2⟩ := readFile_val hr
        have hc := readFd_facts he h2
        have hfc := fine_checkRead (e := e) hc l1
        simp only [M.bind_apply]
        cases hk : check e none c l1 with
        | ub u => rw [hk] at hfc; exact ⟨⟨by simp, by simpa using hfc.2⟩, by simp⟩
        | loop => rw [hk] at hfc; exact absurd rfl hfc.1
        | val y =>
          obtain ⟨b, l2⟩ := y
          cases b with
          | false => exact ⟨Fine.val _, by simp⟩
          | true =>
            obtain ⟨h3, h4⟩ := fine_addAndUpdate (e := e) hj hc (check_composite hk)
            simp only [if_true, M.bind_apply]
            cases ha : addAndUpdate e cat c with
            | ub u => rw [ha] at h3; exact ⟨⟨by simp [M.ofOut], by simpa [M.ofOut] using h3.2⟩, by simp [M.ofOut]⟩
            | loop => rw [ha] at h3; exact absurd rfl h3.1
            | val cat1 => exact ih cat1 l2 (h4 cat1 ha)

/-- C30: for all inputs, iffjoin ends, and the only undefined behaviour it can execute is an
overflowing addition or subtraction of `int`s. -/
theorem C30_only_overflow (e : Env) (he : e.Sane) (files : List Source) (d : Dest) (log : List Msg) :
    join e files d log ≠ .loop ∧ ∀ u, join e files d log = .ub u → u = .signedOverflow := by
  have hj := fine_joinInputs he files createEmptyCAT log ⟨_, _, _, rfl, by simp⟩
  unfold join
  refine fine_bind hj.1 fun oc l1 h => ?_
  cases oc with
  | none => exact fine_pure _ _
  | some cat =>
    refine fine_bind ?_ fun _ _ _ => fine_pure _ _
    obtain ⟨size, ty, cs, rfl, hcs⟩ := hj.2 cat l1 h
    unfold writeFile
    split
    · have hs : Sound defaultRegistry 0 (.grp idCAT size ty cs) := by
        refine ⟨standard_iff.mpr (.grp (Or.inr (Or.inl rfl)) fun c hc =>
          standard_iff.mp (hcs c hc).sound.dispatched), fun _ _ _ hw => ?_, fun _ _ _ hw => ?_,
          fun _ _ _ _ _ hw => ?_⟩
        · cases hw with | grp hm hw => exact (hcs _ hm).sound.raws _ _ _ hw
        · cases hw with | grp hm hw => exact (hcs _ hm).sound.small _ _ _ hw
        · cases hw with | grp hm hw => exact (hcs _ hm).sound.props _ _ _ _ _ hw
      have hf := fine_write he.wide defaultRegistry_sorted _ 0 hs ⟨[], d.cap + d.slack, l1⟩
      have hf' : Fine (writeFd e none (.grp idCAT size ty cs) ⟨[], d.cap + d.slack, l1⟩) := hf
      cases hw : writeFd e none (.grp idCAT size ty cs) ⟨[], d.cap + d.slack, l1⟩ with
      | val x => exact Fine.val _
      | ub u => rw [hw] at hf'; exact ⟨by simp, by simpa using hf'.2⟩
      | loop => rw [hw] at hf'; exact absurd rfl hf'.1
    · exact Fine.val _

/-- `f` can be read, and `c` is what it holds and is valid. -/
def Offers (e : Env) (f : Source) (c : Chunk) : Prop := ∃ bs, f.contents = some bs ∧ Accepts e bs c

theorem joinInputs_outcome {e : Env} (he : e.Sane) : ∀ (files : List Source) (cs : List Chunk) (ty : ID)
    (log : List Msg),
    (∀ f ∈ files, ∀ bs, f.contents = some bs → NoNegativeGroups bs) →
    12 + (encodeAll cs).length + (files.map fun f => (f.contents.getD []).length).sum < 2147483648 →
    ((∃ f ∈ files, ¬ ∃ c, Offers e f c) ∧
      ∃ log', joinInputs e (catOf ty cs) files log = .val (none, log')) ∨
    ∃ (inputs : List (List Byte × Chunk)) (ty' : ID) (log' : List Msg),
      files.map Source.contents = inputs.map (fun i => some i.1) ∧
      (∀ i ∈ inputs, i.1.length < 2147483648 ∧ Accepts e i.1 i.2) ∧
      joinInputs e (catOf ty cs) files log = .val (some (catOf ty' (cs ++ inputs.map Prod.snd)), log') ∧
      12 + (encodeAll (cs ++ inputs.map Prod.snd)).length < 2147483648 := by
  intro files
  induction files with
  | nil =>
    intro cs ty log _ hl
    exact .inr ⟨[], ty, log, rfl, by simp, by simp [joinInputs], by simp at hl ⊢; omega⟩
  | cons f fs ih =>
    intro cs ty log hn hl
    simp only [List.map_cons, List.sum_cons] at hl
    rw [joinInputs, M.bind_apply]
    cases hb : f.contents with
    | none =>
      refine .inl ⟨⟨f, by simp, ?_⟩, _, rfl⟩
      rintro ⟨c, bs, h, _⟩
      rw [hb] at h
      cases h
    | some bs =>
      rw [hb] at hl
      simp only [Option.getD_some] at hl
      obtain ⟨oc, s, hr⟩ := C16_no_undefined_behaviour_partial e he ⟨bs, []⟩ (hn f (by simp) bs hb)
        (by show bs.length < _; omega)
      rw [readFile_eq, hr]
      cases oc with
      | none =>
        refine .inl ⟨⟨f, by simp, ?_⟩, _, rfl⟩
        rintro ⟨c, bs', h, ⟨s', h'⟩, _⟩
        rw [hb] at h
        cases h
        rw [hr] at h'
        cases h'
      | some c =>
        have hc := readFd_facts he hr
        obtain ⟨s1, h1, _⟩ := readFd_some hr
        obtain ⟨w, hw, hL⟩ := (read_loose he _).1 _ _ _ _ h1
        have hlen : (encode c).length ≤ bs.length := by
          have := hL.shaped.length
          have hw' : bs = w ++ s1.inp := hw
          rw [hw', List.length_append]
          omega
        have hd := C20_check_decides_partial e he c (standard_iff.mp hc.sound.dispatched) hc.sound.raws
          hc.props (by omega)
        simp only [M.bind_apply]
        by_cases hconf : Conforms c
        · have hA : Accepts e bs c := ⟨⟨s, hr⟩, _, (hd []).1 hconf⟩
          obtain ⟨_, _, _, _, h3, _⟩ := accepted he (by omega) hA
          obtain ⟨hid, hgt⟩ := accepted_group he hA
          have henc : (encodeAll (cs ++ [c])).length = (encodeAll cs).length + (encode c).length := by
            rw [encodeAll_append, List.length_append, encodeAll, encodeAll, List.append_nil]
          obtain ⟨ty1, hstep⟩ := join_step (e := e) he (ty := ty) (cs := cs) (c := c)
            h3.facts.consistent hid hgt (by omega)
          rw [((hd (log ++ s.log)).1 hconf)]
          simp only [if_true, M.bind_apply, hstep, M.ofOut_val]
          rcases ih (cs ++ [c]) ty1 (log ++ s.log) (fun f' hf' => hn f' (List.mem_cons_of_mem _ hf'))
            (by omega) with ⟨⟨f', hf', h4⟩, log', h5⟩ | ⟨is, ty', log', h4, h4', h5, h6⟩
          · exact .inl ⟨⟨f', List.mem_cons_of_mem _ hf', h4⟩, log', h5⟩
          · rw [List.append_assoc] at h5 h6
            refine .inr ⟨(bs, c) :: is, ty', log', by simp [hb, h4], fun i hi => ?_, h5, h6⟩
            rcases List.mem_cons.mp hi with rfl | hi
            · exact ⟨by show bs.length < _; omega, hA⟩
            · exact h4' i hi
        · obtain ⟨l, h2⟩ := (hd (log ++ s.log)).2 hconf
          rw [h2]
          refine .inl ⟨⟨f, by simp, ?_⟩, _, rfl⟩
          rintro ⟨c', bs', h, ⟨s', h'⟩, l', h''⟩
          rw [hb] at h
          cases h
          rw [hr] at h'
          cases h'
          obtain ⟨l2, h2'⟩ := (hd []).2 hconf
          rw [h2'] at h''
          cases h''

/-- C30, what iffjoin does with any inputs without negative group sizes, of less than 2 GiB together: it
ends without undefined behaviour.  If an input cannot be read or is invalid, it exits with 1 without
having opened the destination.  Otherwise it has written as much of the CAT of the inputs as fits, and
the status is 0 exactly if the destination could be opened and seemed to take all of it. -/
theorem C30_outcome (e : Env) (he : e.Sane) (files : List Source) (d : Dest) (log : List Msg)
    (hn : ∀ f ∈ files, ∀ bs, f.contents = some bs → NoNegativeGroups bs)
    (hl : 12 + (files.map fun f => (f.contents.getD []).length).sum < 2147483648) :
    ((∃ f ∈ files, ¬ ∃ c, Offers e f c) ∧ ∃ log', join e files d log = .val ((1, none), log')) ∨
    ∃ (inputs : List (List Byte × Chunk)) (ty : ID) (size : Int) (log' : List Msg),
      files.map Source.contents = inputs.map (fun i => some i.1) ∧ (∀ i ∈ inputs, Accepts e i.1 i.2) ∧
      let cat := encode (.grp idCAT size ty (inputs.map Prod.snd))
      join e files d log = .val ((if d.opens = true ∧ cat.length ≤ d.cap + d.slack then 0 else 1,
        if d.opens = true then some (cat.take d.cap) else none), log') := by
  unfold join
  rw [M.bind_apply]
  rcases joinInputs_outcome he files [] idJJJJ log hn (by simpa [encodeAll] using hl) with
    ⟨h1, log', h2⟩ | ⟨is, ty, log', h1, h1', h2, h3⟩
  · have h2' : joinInputs e createEmptyCAT files log = .val (none, log') := h2
    rw [h2']
    exact .inl ⟨h1, log', rfl⟩
  · rw [List.nil_append] at h2 h3
    have h2' : joinInputs e createEmptyCAT files log = .val (some (catOf ty (is.map Prod.snd)), log') := h2
    have hcs : ∀ c ∈ is.map Prod.snd, Consistent c ∧ Standard c := by
      intro c hc
      obtain ⟨i, hi, rfl⟩ := List.mem_map.mp hc
      obtain ⟨hbl, hA⟩ := h1' i hi
      obtain ⟨_, _, _, _, h4, _⟩ := accepted he hbl hA
      exact ⟨h4.facts.consistent, h4.facts.standard⟩
    generalize hcsd : is.map Prod.snd = cs at h2' h3 hcs
    have hcons : Consistent (catOf ty cs) := .grp rfl (by omega) fun c hc => (hcs c hc).1
    have hstd : Standard (catOf ty cs) := .grp (Or.inr (Or.inl rfl)) fun c hc => (hcs c hc).2
    have hw := writes_chunk e he.wide defaultRegistry_sorted _ 0 hcons (standard_iff.mpr hstd)
    have h1'' := fun i hi => (h1' i hi).2
    rw [h2']
    refine .inr ⟨is, ty, 4 + ((encodeAll cs).length : Int), ?_⟩
    rw [hcsd]
    simp only [M.bind_apply]
    unfold writeFile
    by_cases ho : d.opens = true
    · simp only [ho, if_true, true_and]
      unfold writeFd
      by_cases hr : (encode (catOf ty cs)).length ≤ d.cap + d.slack
      · have h5 := hw.full ⟨[], d.cap + d.slack, log'⟩ hr
        refine ⟨log', h1, h1'', ?_⟩
        rw [show selectChunkRegistry none = defaultRegistry from rfl, h5]
        simp only [M.pure_apply, if_true, List.nil_append]
        exact congrArg (fun k => Out.val ((k, _), log')) (if_pos hr).symm
      · obtain ⟨log2, h5, _⟩ := hw.short ⟨[], d.cap + d.slack, log'⟩ (Nat.lt_of_not_le hr)
        refine ⟨log2, h1, h1'', ?_⟩
        rw [show selectChunkRegistry none = defaultRegistry from rfl, h5]
        simp only [M.pure_apply, Bool.false_eq_true, if_false, List.nil_append]
        rw [List.take_take, Nat.min_eq_left (by omega)]
        exact congrArg (fun k => Out.val ((k, _), log2)) (if_neg hr).symm
    · simp only [ho, if_false, false_and]
      exact ⟨_, h1, h1'', rfl⟩

/-- C30 is false as stated: an input can make iffjoin execute undefined behaviour instead of being
rejected (C16). -/
theorem C30_false : join pc [⟨"a.iff", some overflowing⟩] ⟨"out.iff", true, 100, 0⟩ [] =
    .ub .signedOverflow := by rfl

/-- Non-vacuity: two valid files are joined; with an empty file, the result is 1 and the output is
not opened. -/
example :
    join pc [⟨"a", some (encode (.grp idFORM 4 idTEST []))⟩, ⟨"b", some (encode punctuated)⟩]
      ⟨"o", true, 1000, 0⟩ [] =
      .val ((0, some (encode (catOf idJJJJ [.grp idFORM 4 idTEST [], punctuated]))), []) ∧
    (∃ l, join pc [⟨"a", some (encode punctuated)⟩, ⟨"b", some []⟩] ⟨"o", true, 1000, 0⟩ [] =
      .val ((1, none), l)) := by
  exact ⟨by decide +kernel, _, rfl⟩

/-! ### C31 -/

/-- The file can be read, and it is valid if that is asked for. -/
def Printable (e : Env) (f : Source) (disableCheck : Bool) (c : Chunk) : Prop :=
  ∃ bs s, f.contents = some bs ∧ readFd e none ⟨bs, []⟩ = .val (some c, s) ∧
    (disableCheck = true ∨ ∃ l, check e none c [] = .val (true, l))

/-- C31 for all files and options: iffpp ends; the only undefined behaviour is an overflow while
reading or checking; and if there is none, it exits with 0 after printing the hierarchy if the file
is printable, and otherwise with 1 and without output.  Missing: files that make the reader overflow
(`C31_false`). -/
theorem C31_prints_partial (e : Env) (he : e.Sane) (f : Source) (disableCheck : Bool)
    (log : List Msg) :
    prettyPrint e f disableCheck log ≠ .loop ∧
    (∀ u, prettyPrint e f disableCheck log = .ub u → u = .signedOverflow) ∧
    (∀ status out log', prettyPrint e f disableCheck log = .val ((status, out), log') →
      (∃ c, Printable e f disableCheck c ∧ status = 0 ∧ print none 0 c = .val out) ∨
      (¬ ∃ c, Printable e f disableCheck c) ∧ status = 1 ∧ out = []) := by
  have hfr := fine_readFile he f log
  unfold prettyPrint
  rw [M.bind_apply]
  cases hr : readFile e none f.name f.contents log with
  | ub u => rw [hr] at hfr; exact ⟨by simp, by simpa using hfr.2, by simp⟩
  | loop => rw [hr] at hfr; exact absurd rfl hfr.1
  | val x =>
    obtain ⟨oc, l1⟩ := x
    cases oc with
    | none =>
      refine ⟨by simp, by simp, fun status out log' h => Or.inr ⟨?_, ?_⟩⟩
      · rintro ⟨c, bs, s, h1, h2, _⟩
        exact readFile_none hr bs s c h1 h2
      · simp only [M.pure_apply, Out.val.injEq, Prod.mk.injEq] at h
        exact ⟨h.1.1.symm, h.1.2.symm⟩
    | some c =>
      obtain ⟨bs, s, h1, h2⟩ := readFile_val hr
      have hc := readFd_facts he h2
      obtain ⟨t, ht⟩ := prints defaultRegistry_sorted default_groups c 0 0 hc.sound.dispatched
        hc.sound.raws hc.props hc.sound.props
      have ht' : print none 0 c = .val t := ht
      have huniq : ∀ c', Printable e f disableCheck c' → c' = c := by
        rintro c' ⟨bs', s', h1', h2', _⟩
        rw [h1] at h1'
        simp only [Option.some.injEq] at h1'
        subst h1'
        rw [h2] at h2'
        simp only [Out.val.injEq, Prod.mk.injEq, Option.some.injEq] at h2'
        exact h2'.1.symm
      cases hd : disableCheck with
      | true =>
        simp only [if_true, M.bind_apply, ht', M.ofOut_val]
        refine ⟨by simp, by simp, fun status out log' h => Or.inl ⟨c, ⟨bs, s, h1, h2, Or.inl rfl⟩, ?_⟩⟩
        simp only [M.pure_apply, Out.val.injEq, Prod.mk.injEq] at h
        exact ⟨h.1.1.symm, by rw [ht', h.1.2]⟩
      | false =>
        have hfc := fine_checkRead (e := e) hc l1
        simp only [Bool.false_eq_true, if_false, M.bind_apply]
        cases hk : check e none c l1 with
        | ub u => rw [hk] at hfc; exact ⟨by simp, by simpa using hfc.2, by simp⟩
        | loop => rw [hk] at hfc; exact absurd rfl hfc.1
        | val y =>
          obtain ⟨b, l2⟩ := y
          cases b with
          | true =>
            simp only [if_true, M.bind_apply, ht', M.ofOut_val]
            refine ⟨by simp, by simp, fun status out log' h =>
              Or.inl ⟨c, ⟨bs, s, h1, h2, Or.inr (check_val hk)⟩, ?_⟩⟩
            simp only [M.pure_apply, Out.val.injEq, Prod.mk.injEq] at h
            exact ⟨h.1.1.symm, by rw [ht', h.1.2]⟩
          | false =>
            simp only [Bool.false_eq_true, if_false]
            refine ⟨by simp, by simp, fun status out log' h => Or.inr ⟨?_, ?_⟩⟩
            · rintro ⟨c', hp⟩
              rw [hd] at huniq
              obtain rfl := huniq c' hp
              obtain ⟨_, _, _, _, hv⟩ := hp
              rcases hv with hv | ⟨l, hv⟩
              · cases hv
              · obtain ⟨l', hk'⟩ := check_val hk
                rw [hk'] at hv; simp at hv
            · simp only [M.pure_apply, Out.val.injEq, Prod.mk.injEq] at h
              exact ⟨h.1.1.symm, h.1.2.symm⟩

/-- C31 without a proviso for files shorter than 2 GiB in which no group ID is followed by a negative
size: iffpp has no undefined behaviour. -/
theorem C31_total (e : Env) (he : e.Sane) (f : Source) (disableCheck : Bool) (log : List Msg)
    (hf : ∀ bs, f.contents = some bs → NoNegativeGroups bs ∧ bs.length < 2147483648) :
    ∃ status out log', prettyPrint e f disableCheck log = .val ((status, out), log') := by
  unfold prettyPrint
  rw [M.bind_apply]
  cases hc : f.contents with
  | none => exact ⟨_, _, _, rfl⟩
  | some bs =>
    obtain ⟨hn, hl⟩ := hf bs hc
    obtain ⟨oc, s, hr⟩ := C16_no_undefined_behaviour_partial e he ⟨bs, []⟩ hn hl
    rw [readFile_eq, hr]
    cases oc with
    | none => exact ⟨_, _, _, rfl⟩
    | some c =>
      have hc := readFd_facts he hr
      obtain ⟨t, ht⟩ := prints defaultRegistry_sorted default_groups c 0 0 hc.sound.dispatched
        hc.sound.raws hc.props hc.sound.props
      have ht' : print none 0 c = .val t := ht
      have hlen : (encode c).length < 2147483648 := by
        obtain ⟨s1, h1, _⟩ := readFd_some hr
        obtain ⟨w, hw, hL⟩ := (read_loose he _).1 _ _ _ _ h1
        have := hL.shaped.length
        have hw' : bs = w ++ s1.inp := hw
        have : w.length ≤ bs.length := by rw [hw']; simp
        omega
      simp only
      have hd := C20_check_decides_partial e he c (standard_iff.mp hc.sound.dispatched) hc.sound.raws
        hc.props hlen (log ++ s.log)
      by_cases hdc : disableCheck = true
      · simp only [if_pos hdc, M.bind_apply, ht', M.ofOut_val]
        exact ⟨_, _, _, rfl⟩
      · simp only [if_neg hdc, M.bind_apply]
        by_cases hconf : Conforms c
        · rw [hd.1 hconf]
          simp only [if_true, M.bind_apply, ht', M.ofOut_val]
          exact ⟨_, _, _, rfl⟩
        · obtain ⟨l, h2⟩ := hd.2 hconf
          rw [h2]
          exact ⟨_, _, _, rfl⟩

/-- C31 is false as stated: a file can make iffpp execute undefined behaviour (C16). -/
theorem C31_false : prettyPrint pc ⟨"a.iff", some overflowing⟩ false [] = .ub .signedOverflow := by rfl

/-- Non-vacuity: a valid file is printed; a late PROP as main chunk only with `-c`. -/
example :
    prettyPrint pc ⟨"a", some (encode (.grp idFORM 4 idTEST []))⟩ false [] =
      .val ((0, asc ("'FORM' = {\n  chunkSize = 4;\nformType = 'TEST';\n[\n];\n}\n\n")), []) ∧
    prettyPrint pc ⟨"a", some (encode (.grp idPROP 4 idTEST []))⟩ false [] =
      .val ((1, []), [.notIff85]) ∧
    prettyPrint pc ⟨"a", some (encode (.grp idPROP 4 idTEST []))⟩ true [] =
      .val ((0, asc ("'PROP' = {\n  chunkSize = 4;\nformType = 'TEST';\n[\n];\n}\n\n")), []) := by
  exact ⟨by rfl, by rfl, by rfl⟩

/-! ### C42 -/

theorem joinOptions_plain : ∀ (args : List String) (out : Option String) (n : Nat),
    (∀ a ∈ args, a ≠ "/o" ∧ a ≠ "/?" ∧ a ≠ "/v") → joinOptions args out n = some (out, n) := by
  intro args
  induction args with
  | nil => intro out n _; rfl
  | cons a as ih =>
    intro out n h
    obtain ⟨h1, h2, h3⟩ := h a (by simp)
    rw [joinOptions, if_neg h1, if_neg h2, if_neg h3]
    exact ih out n fun b hb => h b (by simp [hb])

/-- C42 for command lines without options: the standard output is written and all arguments are
inputs.  Missing: command lines with an output option, for which it is false (`C42_false`). -/
theorem C42_options_partial (prog : String) (args : List String)
    (h : ∀ a ∈ args, a ≠ "/o" ∧ a ≠ "/?" ∧ a ≠ "/v") (hne : args ≠ []) :
    joinMain (prog :: args) = .run none args := by
  unfold joinMain
  simp only [List.tail_cons]
  rw [joinOptions_plain args none 1 h]
  have : 0 < args.length := List.length_pos_iff.mpr hne
  simp only [List.length_cons, ge_iff_le]
  rw [if_neg (by omega)]
  rfl

theorem joinOptions_out : ∀ (args : List String) (out : Option String) (n : Nat)
    (r : Option String × Nat), joinOptions args out n = some r → r.1 = out ∨ r.1 = some "/o" := by
  intro args
  induction args with
  | nil => intro out n r h; cases h; exact Or.inl rfl
  | cons a as ih =>
    intro out n r h
    rw [joinOptions] at h
    split at h
    · rename_i ha
      rcases ih _ _ _ h with h | h
      · exact Or.inr (by rw [h, ha])
      · exact Or.inr h
    · split at h
      · cases h
      · split at h
        · cases h
        · exact ih _ _ _ h

/-- C42 is false for every command line with an output option: whatever the arguments are, iffjoin
either writes to the standard output or to a file named "/o". -/
theorem C42_false (argv : List String) (out : Option String) (inputs : List String)
    (h : joinMain argv = .run out inputs) : out = none ∨ out = some "/o" := by
  unfold joinMain at h
  split at h
  · cases h
  · rename_i out' optind heq
    split at h
    · cases h
    · simp only [Action.run.injEq] at h
      rw [← h.1]
      exact joinOptions_out _ _ _ _ heq

/-- C42, an instance: the output file becomes the first input. -/
theorem C42_false_witness :
    joinMain ["iffjoin", "/o", "out.iff", "a.iff", "b.iff"] =
      .run (some "/o") ["out.iff", "a.iff", "b.iff"] := by decide

/-- Non-vacuity of `C42_options_partial`. -/
example : joinMain ["iffjoin", "a.iff", "b.iff"] = .run none ["a.iff", "b.iff"] :=
  C42_options_partial _ _ (by decide) (by decide)

/-! ### C48 -/

theorem ppOptions_scan (k : Nat) (rest : List String)
    (h : ∀ a ∈ rest, a ≠ "/c" ∧ a ≠ "/?" ∧ a ≠ "/v") : ∀ (c : Bool) (n : Nat),
    ppOptions (List.replicate k "/c" ++ rest) c n = some (c || decide (0 < k), n + k) := by
  induction k with
  | zero =>
    intro c n
    simp only [List.replicate_zero, List.nil_append, Nat.lt_irrefl, decide_false, Bool.or_false,
      Nat.add_zero]
    induction rest with
    | nil => rfl
    | cons a as ih =>
      obtain ⟨h1, h2, h3⟩ := h a (by simp)
      rw [ppOptions, if_neg h1, if_neg h2, if_neg h3]
      exact ih fun b hb => h b (by simp [hb])
  | succ k ih =>
    intro c n
    rw [List.replicate_succ, List.cons_append, ppOptions, if_pos rfl, ih]
    simp only [Bool.true_or, Nat.zero_lt_succ, decide_true, Bool.or_true, Option.some.injEq,
      Prod.mk.injEq, true_and]
    omega

/-- C48 for command lines with the options first: the check is disabled iff there is a `/c`, and the
file is the first argument after the options, if any.  Missing: options after the file name, for
which it is false (`C48_false`). -/
theorem C48_options_first_partial (prog : String) (k : Nat) (rest : List String)
    (h : ∀ a ∈ rest, a ≠ "/c" ∧ a ≠ "/?" ∧ a ≠ "/v") :
    ppMain (prog :: (List.replicate k "/c" ++ rest)) = some (decide (0 < k), rest.head?) := by
  unfold ppMain
  rw [List.tail_cons, ppOptions_scan k rest h]
  simp only [Bool.false_or, Option.some.injEq, Prod.mk.injEq, true_and]
  rw [Nat.add_comm 1 k, List.getElem?_cons_succ, List.getElem?_append_right (by simp)]
  simp [List.head?_eq_getElem?]

/-- C48 is false: with the option after the file name, iffpp opens a file named "/c". -/
theorem C48_false : ppMain ["iffpp", "a.iff", "/c"] = some (true, some "/c") := by decide

/-- Non-vacuity of `C48_options_first_partial`. -/
example : ppMain ["iffpp", "/c", "a.iff"] = some (true, some "a.iff") :=
  C48_options_first_partial _ 1 ["a.iff"] (by decide)

end Iff
