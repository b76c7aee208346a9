import Verif.Spec.CommandLine
/-
  `getopt` and `getopt_long` on the options of the tools.
-/
namespace Iff
open Spec

theorem abbr_cases {p name : Arg} (h : Abbr p name) : ∃ k < name.length, p = name.take (k + 1) := by
  have h1 := List.prefix_iff_eq_take.mp h.2
  have h2 := h.2.length_le
  have h3 : p.length ≠ 0 := fun e => h.1 (List.length_eq_zero_iff.mp e)
  refine ⟨p.length - 1, by omega, ?_⟩
  rw [show p.length - 1 + 1 = p.length by omega]
  exact h1

theorem abbr_self {name : Arg} (h : name ≠ []) : Abbr name name := ⟨h, List.prefix_rfl⟩

/-- No name of an option contains `=`. -/
theorem abbr_no_eq {p name : Arg} (h : Abbr p name) (hn : '=' ∉ name) : '=' ∉ p :=
  fun hp => hn (h.2.subset hp)

theorem longOption_join_o {p : Arg} (h : Abbr p outputFile) : longOption joinOpts p = some 'o' := by
  have : ∀ k < outputFile.length, longOption joinOpts (outputFile.take (k + 1)) = some 'o' := by decide
  obtain ⟨k, hk, rfl⟩ := abbr_cases h
  exact this k hk

theorem longOption_join_h {p : Arg} (h : Abbr p help) : longOption joinOpts p = some 'h' := by
  have : ∀ k < help.length, longOption joinOpts (help.take (k + 1)) = some 'h' := by decide
  obtain ⟨k, hk, rfl⟩ := abbr_cases h
  exact this k hk

theorem longOption_join_v {p : Arg} (h : Abbr p version) : longOption joinOpts p = some 'v' := by
  have : ∀ k < version.length, longOption joinOpts (version.take (k + 1)) = some 'v' := by decide
  obtain ⟨k, hk, rfl⟩ := abbr_cases h
  exact this k hk

theorem longOption_pp_c {p : Arg} (h : Abbr p disableCheck) : longOption ppOpts p = some 'c' := by
  have : ∀ k < disableCheck.length, longOption ppOpts (disableCheck.take (k + 1)) = some 'c' := by decide
  obtain ⟨k, hk, rfl⟩ := abbr_cases h
  exact this k hk

theorem longOption_pp_h {p : Arg} (h : Abbr p help) : longOption ppOpts p = some 'h' := by
  have : ∀ k < help.length, longOption ppOpts (help.take (k + 1)) = some 'h' := by decide
  obtain ⟨k, hk, rfl⟩ := abbr_cases h
  exact this k hk

theorem longOption_pp_v {p : Arg} (h : Abbr p version) : longOption ppOpts p = some 'v' := by
  have : ∀ k < version.length, longOption ppOpts (version.take (k + 1)) = some 'v' := by decide
  obtain ⟨k, hk, rfl⟩ := abbr_cases h
  exact this k hk

/-- A name that abbreviates none of the options is unknown. -/
theorem longOption_none (o : Options) (p : Arg) (hp : p = [] → longOption o [] = none)
    (h : ∀ l ∈ o.long, ¬ Abbr p l.1) : longOption o p = none := by
  by_cases he : p = []
  · subst he; exact hp rfl
  · have h' : ∀ l ∈ o.long, ¬ p <+: l.1 := fun l hl hpre => h l hl ⟨he, hpre⟩
    have hf : o.long.find? (fun l => decide (l.1 = p)) = none := by
      simp only [List.find?_eq_none, decide_eq_true_eq]
      intro l hl heq
      exact h' l hl (heq ▸ List.prefix_rfl)
    have hg : o.long.filter (fun l => p.isPrefixOf l.1) = [] := by
      simp only [List.filter_eq_nil_iff, List.isPrefixOf_iff_prefix]
      exact h'
    simp only [longOption, hf, hg]

theorem longOption_join_none {p : Arg} (ho : ¬ Abbr p outputFile) (hh : ¬ Abbr p help)
    (hv : ¬ Abbr p version) : longOption joinOpts p = none := by
  refine longOption_none _ _ (fun _ => by decide) ?_
  intro l hl
  simp only [joinOpts, List.mem_cons, List.not_mem_nil, or_false] at hl
  rcases hl with rfl | rfl | rfl
  · exact ho
  · exact hh
  · exact hv

theorem longOption_pp_none {p : Arg} (ho : ¬ Abbr p disableCheck) (hh : ¬ Abbr p help)
    (hv : ¬ Abbr p version) : longOption ppOpts p = none := by
  refine longOption_none _ _ (fun _ => by decide) ?_
  intro l hl
  simp only [ppOpts, List.mem_cons, List.not_mem_nil, or_false] at hl
  rcases hl with rfl | rfl | rfl
  · exact ho
  · exact hh
  · exact hv

theorem takeWhile_no_eq {p : Arg} (h : '=' ∉ p) (q : Arg) :
    (p ++ '=' :: q).takeWhile (· ≠ '=') = p ∧ (p ++ '=' :: q).dropWhile (· ≠ '=') = '=' :: q := by
  induction p with
  | nil => simp
  | cons c cs ih =>
    have hc : c ≠ '=' := fun e => h (e ▸ List.mem_cons_self)
    have := ih fun hm => h (List.mem_cons_of_mem _ hm)
    simp only [List.cons_append, ne_eq, List.takeWhile_cons, List.dropWhile_cons, hc,
      not_false_eq_true, decide_true, if_true] at this ⊢
    exact ⟨by rw [this.1], this.2⟩

theorem longName_plain {p : Arg} (h : '=' ∉ p) : longName p = p ∧ longValue p = none := by
  have ht : p.takeWhile (· ≠ '=') = p ∧ p.dropWhile (· ≠ '=') = [] := by
    induction p with
    | nil => simp
    | cons c cs ih =>
      have hc : c ≠ '=' := fun e => h (e ▸ List.mem_cons_self)
      have := ih fun hm => h (List.mem_cons_of_mem _ hm)
      simp only [ne_eq, List.takeWhile_cons, List.dropWhile_cons, hc,
        not_false_eq_true, decide_true, if_true] at this ⊢
      exact ⟨by rw [this.1], this.2⟩
  exact ⟨ht.1, by simp only [longValue, ht.2]⟩

theorem longName_value {p : Arg} (h : '=' ∉ p) (v : Arg) :
    longName (p ++ '=' :: v) = p ∧ longValue (p ++ '=' :: v) = some v := by
  have := takeWhile_no_eq h v
  exact ⟨this.1, by simp only [longValue, this.2]⟩

/-- Every long option is a name, with or without a value. -/
theorem long_split (a : Arg) : '=' ∉ longName a ∧
    ((longValue a = none ∧ a = longName a) ∨ ∃ v, longValue a = some v ∧ a = longName a ++ '=' :: v) := by
  have hno : '=' ∉ longName a := by
    intro h
    have := List.all_takeWhile (p := (fun x : Char => decide (x ≠ '='))) (l := a)
    have := List.all_eq_true.mp this _ h
    simp at this
  refine ⟨hno, ?_⟩
  have hs := List.takeWhile_append_dropWhile (p := (fun x : Char => decide (x ≠ '='))) (l := a)
  cases hd : a.dropWhile (· ≠ '=') with
  | nil =>
    rw [hd] at hs
    exact .inl ⟨by simp only [longValue, hd], by simpa [longName] using hs.symm⟩
  | cons c v =>
    have hc : c = '=' := by
      have := List.head?_dropWhile_not (fun x : Char => decide (x ≠ '=')) a
      rw [hd] at this
      simpa using this
    subst hc
    rw [hd] at hs
    exact .inr ⟨v, by simp only [longValue, hd], hs.symm⟩

theorem no_eq_outputFile : '=' ∉ outputFile := by decide
theorem no_eq_disableCheck : '=' ∉ disableCheck := by decide
theorem no_eq_help : '=' ∉ help := by decide
theorem no_eq_version : '=' ∉ version := by decide

/-! One step of `getopt_long` and of `getopt`. -/

theorem getoptLong_pend (o : Options) (c : Char) (a : Arg) (as : List Arg) :
    getoptLong o (some c) (a :: as) =
      (.arg c a :: (getoptLong o none as).1, (getoptLong o none as).2) := rfl

theorem getoptLong_dashes (o : Options) (as : List Arg) :
    getoptLong o none (['-', '-'] :: as) = ([], as) := rfl

theorem getoptLong_long (o : Options) {name : Arg} (h : name ≠ []) (as : List Arg) :
    getoptLong o none (('-' :: '-' :: name) :: as) =
      ((longOpt o name).1 ++ (getoptLong o (longOpt o name).2 as).1,
        (getoptLong o (longOpt o name).2 as).2) := by
  simp only [getoptLong, h, if_false]

theorem getoptLong_cluster (o : Options) {c : Char} (h : c ≠ '-') (cs : Arg) (as : List Arg) :
    getoptLong o none (('-' :: c :: cs) :: as) =
      ((cluster o (c :: cs)).1 ++ (getoptLong o (cluster o (c :: cs)).2 as).1,
        (getoptLong o (cluster o (c :: cs)).2 as).2) := by
  rw [getoptLong]
  exact h

theorem getoptLong_operand (o : Options) {a : Arg} (h : Operand a) (as : List Arg) :
    getoptLong o none (a :: as) = ((getoptLong o none as).1, a :: (getoptLong o none as).2) := by
  rw [getoptLong]
  · intro n e; subst e; simp [Operand] at h
  · intro c cs e; subst e; simp [Operand] at h

theorem getopt_pend (o : Options) (c : Char) (a : Arg) (as : List Arg) :
    getopt o (some c) (a :: as) = (.arg c a :: (getopt o none as).1, (getopt o none as).2) := rfl

theorem getopt_dashes (o : Options) (as : List Arg) :
    getopt o none (['-', '-'] :: as) = ([], as) := rfl

theorem getopt_cluster (o : Options) {c : Char} {cs : Arg} (h : c = '-' → cs ≠ [])
    (as : List Arg) :
    getopt o none (('-' :: c :: cs) :: as) =
      ((cluster o (c :: cs)).1 ++ (getopt o (cluster o (c :: cs)).2 as).1,
        (getopt o (cluster o (c :: cs)).2 as).2) := by
  have : ¬ (c = '-' ∧ cs = []) := fun ⟨h1, h2⟩ => h h1 h2
  simp only [getopt, this, if_false]

theorem getopt_operand (o : Options) {a : Arg} (h : Operand a) (as : List Arg) :
    getopt o none (a :: as) = ([], a :: as) := by
  rw [getopt]
  intro c cs e; subst e; simp [Operand] at h

/-- Every argument is an operand, a long option, or short options. -/
theorem arg_cases (a : Arg) : Operand a ∨ (∃ n, a = '-' :: '-' :: n) ∨
    ∃ c cs, c ≠ '-' ∧ a = '-' :: c :: cs := by
  match a with
  | [] => exact .inl (.inr (by simp))
  | [c] =>
    by_cases h : c = '-'
    · exact .inl (.inl (by rw [h]))
    · exact .inl (.inr (by simpa using h))
  | c :: d :: ds =>
    by_cases h : c = '-'
    · subst h
      by_cases hd : d = '-'
      · subst hd; exact .inr (.inl ⟨_, rfl⟩)
      · exact .inr (.inr ⟨d, ds, hd, rfl⟩)
    · exact .inl (.inr (by simpa using h))

/-! iffjoin -/

/-- `main` of iffjoin up to the loop over the input files, from `outputFilename` on. -/
def joinEnd (acc : Option Arg) (p : List Opt × List Arg) : Run (Option Arg × List Arg) :=
  (joinLoop p.1 acc).map fun out => (out, p.2)

/-- The meaning of a command line after an output file was named. -/
def after (acc : Option Arg) (m : Run (Option Arg × List Arg)) : Run (Option Arg × List Arg) :=
  m.map fun q => (q.1.or acc, q.2)

theorem after_named (f : Arg) (acc : Option Arg) (m : Run (Option Arg × List Arg)) :
    after acc (m.map fun q => (some (q.1.getD f), q.2)) = after (some f) m := by
  cases m with
  | run a => obtain ⟨o, fs⟩ := a; cases o <;> rfl
  | _ => rfl

theorem after_operand (a : Arg) (acc : Option Arg) (m : Run (Option Arg × List Arg)) :
    after acc (m.map fun q => (q.1, a :: q.2)) = (after acc m).map fun q => (q.1, a :: q.2) := by
  cases m <;> rfl

theorem joinEnd_named (f : Arg) (acc : Option Arg) (os : List Opt) (fs : List Arg) :
    joinEnd acc (.arg 'o' f :: os, fs) = joinEnd (some f) (os, fs) := rfl

theorem joinEnd_operand (a : Arg) (acc : Option Arg) (os : List Opt) (fs : List Arg) :
    joinEnd acc (os, a :: fs) = (joinEnd acc (os, fs)).map fun q => (q.1, a :: q.2) := by
  simp only [joinEnd]
  cases joinLoop os acc <;> rfl

theorem joinEnd_bad (acc : Option Arg) (os : List Opt) (fs : List Arg) :
    joinEnd acc (.bad :: os, fs) = .usage 1 := rfl

theorem joinEnd_help (acc : Option Arg) (os : List Opt) (fs : List Arg) :
    joinEnd acc (.flag 'h' :: os, fs) = .usage 0 := rfl

theorem joinEnd_version (acc : Option Arg) (os : List Opt) (fs : List Arg) :
    joinEnd acc (.flag 'v' :: os, fs) = .version := rfl

theorem cluster_join_o (cs : Arg) (h : cs ≠ []) :
    cluster joinOpts ('o' :: cs) = ([.arg 'o' cs], none) := by
  simp [cluster, joinOpts, h]

theorem cluster_join_unknown {c : Char} (cs : Arg) (ho : c ≠ 'o') (hh : c ≠ 'h') (hv : c ≠ 'v') :
    cluster joinOpts (c :: cs) = (.bad :: (cluster joinOpts cs).1, (cluster joinOpts cs).2) := by
  simp [cluster, joinOpts, ho, hh, hv]

theorem longOpt_needed {o : Options} {p : Arg} {c : Char} (hp : '=' ∉ p)
    (h : longOption o p = some c) (hs : o.short c = some true) :
    longOpt o p = ([], some c) ∧ ∀ v, longOpt o (p ++ '=' :: v) = ([.arg c v], none) := by
  constructor
  · simp only [longOpt, longName_plain hp, h, hs]
  · intro v; simp only [longOpt, longName_value hp v, h, hs]

theorem longOpt_flag {o : Options} {p : Arg} {c : Char} (hp : '=' ∉ p)
    (h : longOption o p = some c) (hs : o.short c = some false) :
    longOpt o p = ([.flag c], none) ∧ ∀ v, longOpt o (p ++ '=' :: v) = ([.bad], none) := by
  constructor
  · simp only [longOpt, longName_plain hp, h, hs]
  · intro v; simp only [longOpt, longName_value hp v, h, hs]

theorem longOpt_unknown {o : Options} {p q : Arg} (hp : '=' ∉ p) (hq : q = [] ∨ q.head? = some '=')
    (h : longOption o p = none) : longOpt o (p ++ q) = ([.bad], none) := by
  rcases hq with rfl | hq
  · simp only [List.append_nil, longOpt, longName_plain hp, h]
  · cases q with
    | nil => simp at hq
    | cons c v =>
      simp only [List.head?_cons, Option.some.injEq] at hq
      subst hq
      simp only [longOpt, longName_value hp v, h]

theorem joinLong_sound {args : List Arg} {m : Run (Option Arg × List Arg)}
    (h : JoinLine true args m) (acc : Option Arg) :
    joinEnd acc (getoptLong joinOpts none args) = after acc m := by
  induction h generalizing acc with
  | nil => rfl
  | dashes fs => rfl
  | operand _ ha _ ih =>
    rw [getoptLong_operand _ ha, joinEnd_operand, after_operand, ← ih]
  | operands hg => exact absurd hg (by decide)
  | apart _ ih => rw [after_named, ← ih]; rfl
  | joined hf _ ih =>
    rw [after_named, ← ih, getoptLong_cluster _ (by decide), cluster_join_o _ hf]; rfl
  | long _ hp _ ih =>
    rw [after_named, ← ih, getoptLong_long _ hp.1,
      (longOpt_needed (abbr_no_eq hp no_eq_outputFile) (longOption_join_o hp) rfl).1]; rfl
  | longEq _ hp _ ih =>
    rw [after_named, ← ih, getoptLong_long _ (by simp),
      (longOpt_needed (abbr_no_eq hp no_eq_outputFile) (longOption_join_o hp) rfl).2]; rfl
  | help => rw [getoptLong_cluster _ (by decide)]; rfl
  | version => rw [getoptLong_cluster _ (by decide)]; rfl
  | longHelp _ hp =>
    rw [getoptLong_long _ hp.1,
      (longOpt_flag (abbr_no_eq hp no_eq_help) (longOption_join_h hp) rfl).1]; rfl
  | longVersion _ hp =>
    rw [getoptLong_long _ hp.1,
      (longOpt_flag (abbr_no_eq hp no_eq_version) (longOption_join_v hp) rfl).1]; rfl
  | unknown ho hh hv hd =>
    rw [getoptLong_cluster _ (fun e => absurd (hd e).1 (by decide)),
      cluster_join_unknown _ ho hh hv]; rfl
  | unknownLong _ hp hne hq ho hh hv =>
    rw [getoptLong_long _ hne, longOpt_unknown hp hq (longOption_join_none ho hh hv)]; rfl
  | needless _ hp =>
    rw [getoptLong_long _ (by simp)]
    rcases hp with hp | hp
    · rw [(longOpt_flag (abbr_no_eq hp no_eq_help) (longOption_join_h hp) rfl).2]; rfl
    · rw [(longOpt_flag (abbr_no_eq hp no_eq_version) (longOption_join_v hp) rfl).2]; rfl
  | missing => rfl
  | missingLong _ hp =>
    rw [getoptLong_long _ hp.1,
      (longOpt_needed (abbr_no_eq hp no_eq_outputFile) (longOption_join_o hp) rfl).1]; rfl

theorem joinPosix_sound {args : List Arg} {m : Run (Option Arg × List Arg)}
    (h : JoinLine false args m) (acc : Option Arg) :
    joinEnd acc (getopt joinOpts none args) = after acc m := by
  induction h generalizing acc with
  | nil => rfl
  | dashes fs => rfl
  | operands _ ha => rw [getopt_operand _ ha]; rfl
  | apart _ ih => rw [after_named, ← ih]; rfl
  | joined hf _ ih =>
    rw [after_named, ← ih, getopt_cluster _ (fun e => absurd e (by decide)), cluster_join_o _ hf]; rfl
  | help => rw [getopt_cluster _ (fun e => absurd e (by decide))]; rfl
  | version => rw [getopt_cluster _ (fun e => absurd e (by decide))]; rfl
  | unknown ho hh hv hd =>
    rw [getopt_cluster _ (fun e => (hd e).2), cluster_join_unknown _ ho hh hv]; rfl
  | missing => rfl
  | operand hg | long hg | longEq hg | longHelp hg | longVersion hg | unknownLong hg | needless hg
  | missingLong hg => exact absurd hg (by decide)

/-- Every command line of iffjoin has a meaning. -/
theorem joinLine_total (gnu : Bool) (args : List Arg) :
    (∃ m, JoinLine gnu args m) ∧ ∀ f as, args = f :: as → ∃ m, JoinLine gnu as m := by
  induction args with
  | nil => exact ⟨⟨_, .nil⟩, fun f as h => by simp at h⟩
  | cons a as ih =>
    refine ⟨?_, fun f as' h => by injection h with _ h; exact h ▸ ih.1⟩
    obtain ⟨⟨m, hm⟩, hrest⟩ := ih
    rcases arg_cases a with ha | ⟨n, rfl⟩ | ⟨c, cs, hc, rfl⟩
    · cases gnu with
      | true => exact ⟨_, .operand rfl ha hm⟩
      | false => exact ⟨_, .operands rfl ha⟩
    · by_cases hn : n = []
      · subst hn; exact ⟨_, .dashes as⟩
      · cases gnu with
        | false => exact ⟨_, .unknown (by decide) (by decide) (by decide) fun _ => ⟨rfl, hn⟩⟩
        | true =>
          obtain ⟨hno, hv⟩ := long_split n
          by_cases ho : Abbr (longName n) outputFile
          · rcases hv with ⟨_, e⟩ | ⟨v, _, e⟩
            · rw [e]
              cases as with
              | nil => exact ⟨_, .missingLong rfl ho⟩
              | cons f as' =>
                obtain ⟨m', hm'⟩ := hrest f as' rfl
                exact ⟨_, .long rfl ho hm'⟩
            · rw [e]; exact ⟨_, .longEq rfl ho hm⟩
          · by_cases hh : Abbr (longName n) help
            · rcases hv with ⟨_, e⟩ | ⟨v, _, e⟩
              · rw [e]; exact ⟨_, .longHelp rfl hh⟩
              · rw [e]; exact ⟨_, .needless rfl (.inl hh)⟩
            · by_cases hver : Abbr (longName n) version
              · rcases hv with ⟨_, e⟩ | ⟨v, _, e⟩
                · rw [e]; exact ⟨_, .longVersion rfl hver⟩
                · rw [e]; exact ⟨_, .needless rfl (.inr hver)⟩
              · rcases hv with ⟨_, e⟩ | ⟨v, _, e⟩
                · have := JoinLine.unknownLong (gnu := true) (p := longName n) (q := []) (as := as)
                    rfl hno (by rw [List.append_nil, ← e]; exact hn) (.inl rfl) ho hh hver
                  rw [List.append_nil, ← e] at this
                  exact ⟨_, this⟩
                · have := JoinLine.unknownLong (gnu := true) (p := longName n) (q := '=' :: v)
                    (as := as) rfl hno (by simp) (.inr rfl) ho hh hver
                  rw [← e] at this
                  exact ⟨_, this⟩
    · by_cases ho : c = 'o'
      · subst ho
        by_cases hcs : cs = []
        · subst hcs
          cases as with
          | nil => exact ⟨_, .missing⟩
          | cons f as' =>
            obtain ⟨m', hm'⟩ := hrest f as' rfl
            exact ⟨_, .apart hm'⟩
        · exact ⟨_, .joined hcs hm⟩
      · by_cases hh : c = 'h'
        · subst hh; exact ⟨_, .help⟩
        · by_cases hv : c = 'v'
          · subst hv; exact ⟨_, .version⟩
          · exact ⟨_, .unknown ho hh hv fun e => absurd e hc⟩

/-! iffpp -/

/-- `main` of iffpp, from the bit `IFFPP_DISABLE_CHECK` on, with all operands. -/
def ppEnd (acc : Bool) (p : List Opt × List Arg) : Run (Bool × List Arg) :=
  (ppLoop p.1 acc).map fun c => (c, p.2)

/-- The meaning of a command line after the check was disabled. -/
def afterCheck (acc : Bool) (m : Run (Bool × List Arg)) : Run (Bool × List Arg) :=
  m.map fun q => (q.1 || acc, q.2)

theorem afterCheck_true (acc : Bool) (m : Run (Bool × List Arg)) :
    afterCheck acc (m.map fun q => (true, q.2)) = afterCheck true m := by
  cases m with
  | run a => obtain ⟨c, fs⟩ := a; cases c <;> rfl
  | _ => rfl

theorem afterCheck_operand (a : Arg) (acc : Bool) (m : Run (Bool × List Arg)) :
    afterCheck acc (m.map fun q => (q.1, a :: q.2)) =
      (afterCheck acc m).map fun q => (q.1, a :: q.2) := by
  cases m <;> rfl

theorem ppEnd_operand (a : Arg) (acc : Bool) (os : List Opt) (fs : List Arg) :
    ppEnd acc (os, a :: fs) = (ppEnd acc (os, fs)).map fun q => (q.1, a :: q.2) := by
  simp only [ppEnd]
  cases ppLoop os acc <;> rfl

theorem cluster_pp_c (n : Nat) (cs : Arg) :
    cluster ppOpts (List.replicate n 'c' ++ cs) =
      (List.replicate n (.flag 'c') ++ (cluster ppOpts cs).1, (cluster ppOpts cs).2) := by
  induction n with
  | zero => rfl
  | succ n ih =>
    simp only [List.replicate_succ, List.cons_append]
    rw [cluster, ih]
    rfl

theorem cluster_pp_unknown {c : Char} (cs : Arg) (ho : c ≠ 'c') (hh : c ≠ 'h') (hv : c ≠ 'v') :
    cluster ppOpts (c :: cs) = (.bad :: (cluster ppOpts cs).1, (cluster ppOpts cs).2) := by
  simp [cluster, ppOpts, ho, hh, hv]

theorem cluster_pp_pend (cs : Arg) : (cluster ppOpts cs).2 = none := by
  induction cs with
  | nil => rfl
  | cons c cs ih =>
    by_cases h : c = 'c' ∨ c = 'h' ∨ c = 'v' <;> simp [cluster, ppOpts, h] <;> exact ih

theorem ppEnd_c (n : Nat) (acc : Bool) (os : List Opt) (fs : List Arg) :
    ppEnd acc (List.replicate (n + 1) (.flag 'c') ++ os, fs) = ppEnd true (os, fs) := by
  have h : ∀ n, ppEnd true (List.replicate n (.flag 'c') ++ os, fs) = ppEnd true (os, fs) := by
    intro n
    induction n with
    | zero => rfl
    | succ n ih => rw [← ih]; rfl
  rw [← h n]; rfl

/-- What follows options `-c` in one argument decides. -/
theorem ppEnd_stop (n : Nat) (acc : Bool) (o : Opt) (os : List Opt) (fs : List Arg)
    (r : Run (Bool × List Arg)) (h : ∀ acc, ppEnd acc (o :: os, fs) = r) :
    ppEnd acc (List.replicate n (.flag 'c') ++ o :: os, fs) = r := by
  cases n with
  | zero => exact h acc
  | succ n => rw [ppEnd_c]; exact h true

/-- Short options, the first of which is no dash. -/
theorem replicate_head {n : Nat} {c : Char} {cs : Arg} (h : n = 0 → c ≠ '-') :
    ∃ d ds, d ≠ '-' ∧ List.replicate n 'c' ++ c :: cs = d :: ds := by
  cases n with
  | zero => exact ⟨c, cs, h rfl, rfl⟩
  | succ n => exact ⟨'c', _, by decide, rfl⟩

theorem getoptLong_cluster' (o : Options) {n : Nat} {c : Char} {cs : Arg} (h : n = 0 → c ≠ '-')
    (as : List Arg) :
    getoptLong o none (('-' :: (List.replicate n 'c' ++ c :: cs)) :: as) =
      ((cluster o (List.replicate n 'c' ++ c :: cs)).1 ++
        (getoptLong o (cluster o (List.replicate n 'c' ++ c :: cs)).2 as).1,
        (getoptLong o (cluster o (List.replicate n 'c' ++ c :: cs)).2 as).2) := by
  obtain ⟨d, ds, hd, e⟩ := replicate_head (cs := cs) h
  rw [e, getoptLong_cluster _ hd]

theorem getopt_cluster' (o : Options) {n : Nat} {c : Char} {cs : Arg}
    (h : n = 0 → c = '-' → cs ≠ []) (as : List Arg) :
    getopt o none (('-' :: (List.replicate n 'c' ++ c :: cs)) :: as) =
      ((cluster o (List.replicate n 'c' ++ c :: cs)).1 ++
        (getopt o (cluster o (List.replicate n 'c' ++ c :: cs)).2 as).1,
        (getopt o (cluster o (List.replicate n 'c' ++ c :: cs)).2 as).2) := by
  cases n with
  | zero => exact getopt_cluster _ (h rfl) _
  | succ n =>
    rw [List.replicate_succ, List.cons_append, getopt_cluster _ (fun e => absurd e (by decide))]

theorem ppLong_sound {args : List Arg} {m : Run (Bool × List Arg)}
    (h : PpLine true args m) (acc : Bool) :
    ppEnd acc (getoptLong ppOpts none args) = afterCheck acc m := by
  induction h generalizing acc with
  | nil => rfl
  | dashes fs => rfl
  | operand _ ha _ ih =>
    rw [getoptLong_operand _ ha, ppEnd_operand, afterCheck_operand, ← ih]
  | operands hg => exact absurd hg (by decide)
  | @check n as m _ ih =>
    have hc := cluster_pp_c (n + 1) []
    rw [List.append_nil] at hc
    rw [afterCheck_true, ← ih, List.replicate_succ, getoptLong_cluster _ (by decide),
      ← List.replicate_succ, hc]
    simp only [cluster, List.append_nil]
    rw [ppEnd_c]
  | long _ hp _ ih =>
    rw [afterCheck_true, ← ih, getoptLong_long _ hp.1,
      (longOpt_flag (abbr_no_eq hp no_eq_disableCheck) (longOption_pp_c hp) rfl).1]; rfl
  | help =>
    rw [getoptLong_cluster' _ (fun _ => by decide), cluster_pp_c]
    simp only [List.append_assoc]
    exact ppEnd_stop _ _ _ _ _ _ fun _ => rfl
  | version =>
    rw [getoptLong_cluster' _ (fun _ => by decide), cluster_pp_c]
    simp only [List.append_assoc]
    exact ppEnd_stop _ _ _ _ _ _ fun _ => rfl
  | longHelp _ hp =>
    rw [getoptLong_long _ hp.1,
      (longOpt_flag (abbr_no_eq hp no_eq_help) (longOption_pp_h hp) rfl).1]; rfl
  | longVersion _ hp =>
    rw [getoptLong_long _ hp.1,
      (longOpt_flag (abbr_no_eq hp no_eq_version) (longOption_pp_v hp) rfl).1]; rfl
  | unknown ho hh hv hd =>
    rw [getoptLong_cluster' _ (fun hn e => absurd (hd e hn).1 (by decide)), cluster_pp_c,
      cluster_pp_unknown _ ho hh hv]
    simp only [List.append_assoc]
    exact ppEnd_stop _ _ _ _ _ _ fun _ => rfl
  | unknownLong _ hp hne hq ho hh hv =>
    rw [getoptLong_long _ hne, longOpt_unknown hp hq (longOption_pp_none ho hh hv)]; rfl
  | needless _ hp =>
    rw [getoptLong_long _ (by simp)]
    rcases hp with hp | hp | hp
    · rw [(longOpt_flag (abbr_no_eq hp no_eq_disableCheck) (longOption_pp_c hp) rfl).2]; rfl
    · rw [(longOpt_flag (abbr_no_eq hp no_eq_help) (longOption_pp_h hp) rfl).2]; rfl
    · rw [(longOpt_flag (abbr_no_eq hp no_eq_version) (longOption_pp_v hp) rfl).2]; rfl

theorem ppPosix_sound {args : List Arg} {m : Run (Bool × List Arg)}
    (h : PpLine false args m) (acc : Bool) :
    ppEnd acc (getopt ppOpts none args) = afterCheck acc m := by
  induction h generalizing acc with
  | nil => rfl
  | dashes fs => rfl
  | operands _ ha => rw [getopt_operand _ ha]; rfl
  | @check n as m _ ih =>
    have hc := cluster_pp_c (n + 1) []
    rw [List.append_nil] at hc
    rw [afterCheck_true, ← ih, List.replicate_succ, getopt_cluster _ (fun e => absurd e (by decide)),
      ← List.replicate_succ, hc]
    simp only [cluster, List.append_nil]
    rw [ppEnd_c]
  | help =>
    rw [getopt_cluster' _ (fun _ e => absurd e (by decide)), cluster_pp_c]
    simp only [List.append_assoc]
    exact ppEnd_stop _ _ _ _ _ _ fun _ => rfl
  | version =>
    rw [getopt_cluster' _ (fun _ e => absurd e (by decide)), cluster_pp_c]
    simp only [List.append_assoc]
    exact ppEnd_stop _ _ _ _ _ _ fun _ => rfl
  | unknown ho hh hv hd =>
    rw [getopt_cluster' _ (fun hn e => (hd e hn).2), cluster_pp_c, cluster_pp_unknown _ ho hh hv]
    simp only [List.append_assoc]
    exact ppEnd_stop _ _ _ _ _ _ fun _ => rfl
  | operand hg | long hg | longHelp hg | longVersion hg | unknownLong hg | needless hg =>
    exact absurd hg (by decide)

/-- Short options are letters `c`, alone or before another letter. -/
theorem replicate_cases (cs : Arg) : (∃ n, cs = List.replicate n 'c') ∨
    ∃ n c ds, c ≠ 'c' ∧ cs = List.replicate n 'c' ++ c :: ds := by
  induction cs with
  | nil => exact .inl ⟨0, rfl⟩
  | cons c cs ih =>
    by_cases h : c = 'c'
    · subst h
      rcases ih with ⟨n, rfl⟩ | ⟨n, d, ds, hd, rfl⟩
      · exact .inl ⟨n + 1, rfl⟩
      · exact .inr ⟨n + 1, d, ds, hd, rfl⟩
    · exact .inr ⟨0, c, cs, h, rfl⟩

/-- Every command line of iffpp has a meaning. -/
theorem ppLine_total (gnu : Bool) (args : List Arg) : ∃ m, PpLine gnu args m := by
  induction args with
  | nil => exact ⟨_, .nil⟩
  | cons a as ih =>
    obtain ⟨m, hm⟩ := ih
    rcases arg_cases a with ha | ⟨n, rfl⟩ | ⟨c, cs, hc, rfl⟩
    · cases gnu with
      | true => exact ⟨_, .operand rfl ha hm⟩
      | false => exact ⟨_, .operands rfl ha⟩
    · by_cases hn : n = []
      · subst hn; exact ⟨_, .dashes as⟩
      · cases gnu with
        | false =>
          exact ⟨_, .unknown (n := 0) (by decide) (by decide) (by decide) fun _ _ => ⟨rfl, hn⟩⟩
        | true =>
          obtain ⟨hno, hv⟩ := long_split n
          by_cases ho : Abbr (longName n) disableCheck
          · rcases hv with ⟨_, e⟩ | ⟨v, _, e⟩
            · rw [e]; exact ⟨_, .long rfl ho hm⟩
            · rw [e]; exact ⟨_, .needless rfl (.inl ho)⟩
          · by_cases hh : Abbr (longName n) help
            · rcases hv with ⟨_, e⟩ | ⟨v, _, e⟩
              · rw [e]; exact ⟨_, .longHelp rfl hh⟩
              · rw [e]; exact ⟨_, .needless rfl (.inr (.inl hh))⟩
            · by_cases hver : Abbr (longName n) version
              · rcases hv with ⟨_, e⟩ | ⟨v, _, e⟩
                · rw [e]; exact ⟨_, .longVersion rfl hver⟩
                · rw [e]; exact ⟨_, .needless rfl (.inr (.inr hver))⟩
              · rcases hv with ⟨_, e⟩ | ⟨v, _, e⟩
                · have := PpLine.unknownLong (gnu := true) (p := longName n) (q := []) (as := as)
                    rfl hno (by rw [List.append_nil, ← e]; exact hn) (.inl rfl) ho hh hver
                  rw [List.append_nil, ← e] at this
                  exact ⟨_, this⟩
                · have := PpLine.unknownLong (gnu := true) (p := longName n) (q := '=' :: v)
                    (as := as) rfl hno (by simp) (.inr rfl) ho hh hver
                  rw [← e] at this
                  exact ⟨_, this⟩
    · rcases replicate_cases (c :: cs) with ⟨n, e⟩ | ⟨n, d, ds, hd, e⟩
      · cases n with
        | zero => simp at e
        | succ n => rw [e]; exact ⟨_, .check hm⟩
      · rw [e]
        by_cases hh : d = 'h'
        · subst hh; exact ⟨_, .help⟩
        · by_cases hv : d = 'v'
          · subst hv; exact ⟨_, .version⟩
          · refine ⟨_, .unknown hd hh hv fun e1 e2 => ?_⟩
            subst e2
            injection e with e _
            exact absurd (e.trans e1) hc

end Iff
