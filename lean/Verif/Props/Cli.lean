import Verif.Model.Cli
import Mathlib.Tactic.Tauto
import Mathlib.Tactic.Push

/-!
# C47, C59: the command line of gemconvert
-/

namespace Gemlog

/-! ## C59: from the words of the command line to options -/

/-- A documented short option as typed: without value, with its value as the next word, or glued to it. -/
inductive Word where
  | flag (c : Nat)
  | value (c : Nat) (a : List Nat)
  | glued (c : Nat) (a : List Nat)

/-- The words typed: `-t`; `-i raw`; `-iraw`. -/
def Word.typed : Word → List (List Nat)
  | .flag c => [[45, c]]
  | .value c a => [[45, c], a]
  | .glued c a => [45 :: c :: a]

/-- What is meant: the option and its value. -/
def Word.meant : Word → List Nat × List Nat
  | .flag c => ([45, c], [])
  | .value c a => ([45, c], a)
  | .glued c a => ([45, c], a)

/-- Options without value are `-h -d -t`; with value `-i -s -x -c -o -f -l -p`. A glued value is not empty. -/
def Word.Valid : Word → Prop
  | .flag c => c ∈ bytes "hdt"
  | .value c _ => c ∈ bytes "isxcoflp"
  | .glued c a => c ∈ bytes "isxcoflp" ∧ a ≠ []

theorem convertShort_eq : convertShort =
    [104, 100, 116, 105, 58, 115, 58, 120, 58, 99, 58, 111, 58, 102, 58, 108, 58, 112, 58] := by decide +kernel

theorem short_flag {c : Nat} (h : c ∈ bytes "hdt") : shortHasArg c convertShort = some false ∧ c ≠ 45 := by
  rw [show bytes "hdt" = [104, 100, 116] by decide +kernel] at h
  simp only [List.mem_cons, List.not_mem_nil, or_false] at h
  rcases h with rfl | rfl | rfl <;> decide +kernel

theorem short_value {c : Nat} (h : c ∈ bytes "isxcoflp") : shortHasArg c convertShort = some true ∧ c ≠ 45 := by
  rw [show bytes "isxcoflp" = [105, 115, 120, 99, 111, 102, 108, 112] by decide +kernel] at h
  simp only [List.mem_cons, List.not_mem_nil, or_false] at h
  rcases h with rfl | rfl | rfl | rfl | rfl | rfl | rfl | rfl <;> decide +kernel

theorem getoptGo_short (short : List Nat) (long : List (List Nat)) (fuel : Nat) (c : Nat) (r : List Nat)
    (args : List (List Nat)) (hc : c ≠ 45) :
    getoptGo short long (fuel + 1) ((45 :: c :: r) :: args) =
      match doShorts short (c :: r) args with
      | none => none
      | some (os, args) => (getoptGo short long fuel args).map fun os' => os ++ os' := by
  rw [getoptGo, if_neg (by simp [hc]), if_neg (by simp [hc]), if_pos (by simp)]
  rfl

theorem getopt_words_then {tail : List (List Nat)} {r : List (List Nat × List Nat)}
    (hstop : ∀ fuel, tail.length ≤ fuel → getoptGo convertShort convertLong fuel tail = some r) :
    ∀ (ws : List Word) (fuel : Nat), (∀ w ∈ ws, w.Valid) → (ws.flatMap Word.typed ++ tail).length ≤ fuel →
      getoptGo convertShort convertLong fuel (ws.flatMap Word.typed ++ tail) = some (ws.map Word.meant ++ r) := by
  intro ws
  induction ws with
  | nil => intro fuel _ hl; exact hstop fuel (by simpa using hl)
  | cons w ws ih =>
    intro fuel hv hl
    have hw := hv w (by simp)
    have hrest := fun f hf => ih f (fun x hx => hv x (by simp [hx])) hf
    rw [List.flatMap_cons, List.append_assoc] at hl ⊢
    cases w with
    | flag c =>
      obtain ⟨h1, h2⟩ := short_flag hw
      simp only [Word.typed, List.length_append, List.length_cons, List.length_nil] at hl
      obtain ⟨f, rfl⟩ : ∃ f, fuel = f + 1 := ⟨fuel - 1, by omega⟩
      simp only [Word.typed, List.cons_append, List.nil_append]
      rw [getoptGo_short _ _ _ _ _ _ h2, doShorts, h1]
      simp only [doShorts, Option.map_some]
      rw [hrest f (by rw [List.length_append]; omega)]
      rfl
    | value c a =>
      obtain ⟨h1, h2⟩ := short_value hw
      simp only [Word.typed, List.length_append, List.length_cons, List.length_nil] at hl
      obtain ⟨f, rfl⟩ : ∃ f, fuel = f + 1 := ⟨fuel - 1, by omega⟩
      simp only [Word.typed, List.cons_append, List.nil_append]
      rw [getoptGo_short _ _ _ _ _ _ h2, doShorts, h1]
      simp only [takeValue, Option.map_some]
      rw [hrest f (by rw [List.length_append]; omega)]
      rfl
    | glued c a =>
      obtain ⟨h0, ha⟩ := hw
      obtain ⟨h1, h2⟩ := short_value h0
      simp only [Word.typed, List.length_append, List.length_cons, List.length_nil] at hl
      obtain ⟨f, rfl⟩ : ∃ f, fuel = f + 1 := ⟨fuel - 1, by omega⟩
      simp only [Word.typed, List.cons_append, List.nil_append]
      rw [getoptGo_short _ _ _ _ _ _ h2, doShorts, h1]
      cases a with
      | nil => exact absurd rfl ha
      | cons x a =>
        simp only [takeValue, Option.map_some]
        rw [hrest f (by rw [List.length_append]; omega)]
        rfl

theorem getopt_words {tail : List (List Nat)} (hstop : ∀ fuel, tail.length ≤ fuel → getoptGo convertShort convertLong fuel tail = some [])
    (ws : List Word) (fuel : Nat) (h : ∀ w ∈ ws, w.Valid) (hf : (ws.flatMap Word.typed ++ tail).length ≤ fuel) :
    getoptGo convertShort convertLong fuel (ws.flatMap Word.typed ++ tail) = some (ws.map Word.meant) := by
  rw [getopt_words_then hstop ws fuel h hf, List.append_nil]

/-- **C59, short forms.** Documented short options are understood in every order and number, each value being the next
word, whatever that word is, or the rest of the same word. -/
theorem C59_short_forms (ws : List Word) (h : ∀ w ∈ ws, w.Valid) :
    getopt convertShort convertLong (ws.flatMap Word.typed) = some (ws.map Word.meant) := by
  have := getopt_words (tail := []) (fun fuel _ => by cases fuel <;> rfl) ws _ h (Nat.le_refl _)
  rw [List.append_nil] at this
  exact this

/-- **C59, end of the options.** From a word on that is `-`, `--` or does not begin with a dash (and is not the value of an option), nothing
is read: not even further options. -/
theorem C59_rest_ignored (ws : List Word) (h : ∀ w ∈ ws, w.Valid) (x : List Nat) (tail : List (List Nat))
    (hx : x = [45] ∨ x = [45, 45] ∨ x.head? ≠ some 45) :
    getopt convertShort convertLong (ws.flatMap Word.typed ++ x :: tail) = some (ws.map Word.meant) := by
  refine getopt_words ?_ ws _ h (Nat.le_refl _)
  intro fuel hf
  obtain ⟨f, rfl⟩ : ∃ f, fuel = f + 1 := ⟨fuel - 1, by simp only [List.length_cons] at hf; omega⟩
  rw [getoptGo]
  rcases hx with rfl | rfl | hx
  · rw [if_neg (by decide), if_neg (by decide), if_neg (by simp)]
  · rw [if_pos rfl]
  · have h1 : x.take 2 ≠ [45, 45] := by
      intro h2
      apply hx
      match x, h2 with
      | y :: t, h2 =>
        simp only [List.take_succ_cons, List.cons.injEq] at h2
        rw [h2.1]
        rfl
    rw [if_neg (fun h2 => h1 (by rw [h2]; rfl)), if_neg h1, if_neg (fun h2 => hx h2.1)]

/-- `gemconvert -t raw2 -s 012`: the serial number is not read. -/
example : getopt convertShort convertLong [bytes "-t", bytes "raw2", bytes "-s", bytes "012"] = some [(bytes "-t", [])] := by
  have := C59_rest_ignored [.flag 116] (by
    intro w hw
    rw [List.mem_singleton] at hw
    subst hw
    show 116 ∈ bytes "hdt"; decide +kernel) (bytes "raw2") [bytes "-s", bytes "012"] (.inr (.inr (by decide +kernel)))
  rw [show [bytes "-t", bytes "raw2", bytes "-s", bytes "012"] = [Word.flag 116].flatMap Word.typed ++ bytes "raw2" :: [bytes "-s", bytes "012"] by
    decide +kernel, this]
  decide +kernel

/-- `gemconvert -i rawdata -t -s012,034`. -/
example : (∀ w ∈ [Word.value 105 (bytes "rawdata"), .flag 116, .glued 115 (bytes "012,034")], w.Valid) ∧
    getopt convertShort convertLong [bytes "-i", bytes "rawdata", bytes "-t", bytes "-s012,034"] =
      some [(bytes "-i", bytes "rawdata"), (bytes "-t", []), (bytes "-s", bytes "012,034")] := by
  refine ⟨?_, by decide +kernel⟩
  intro w hw
  simp only [List.mem_cons, List.not_mem_nil, or_false] at hw
  rcases hw with rfl | rfl | rfl
  · show 105 ∈ bytes "isxcoflp"; decide +kernel
  · show 116 ∈ bytes "hdt"; decide +kernel
  · exact ⟨by decide +kernel, by decide +kernel⟩

/-! ## C59: from options to settings -/

/-- The value of the last occurrence of an option, under any of its names. -/
def lastValue (opts : List (List Nat × List Nat)) (names : List (List Nat)) : Option (List Nat) :=
  ((opts.filter fun x => x.1 ∈ names).getLast?).map Prod.snd

theorem bytes_inj {a b : String} : bytes a = bytes b ↔ a = b := by
  refine ⟨fun h => ?_, fun h => by rw [h]⟩
  unfold bytes at h
  have hinj : Function.Injective Char.toNat := by
    intro x y hxy
    exact Char.ext (UInt32.toNat_inj.mp hxy)
  exact String.toList_injective ((List.map_injective_iff.mpr hinj) h)

theorem lastValue_cons (x : List Nat × List Nat) (l : List (List Nat × List Nat)) (names : List (List Nat)) :
    lastValue (x :: l) names = match lastValue l names with
      | some v => some v
      | none => if x.1 ∈ names then some x.2 else none := by
  unfold lastValue
  rw [List.filter_cons]
  by_cases h : x.1 ∈ names
  · rw [if_pos (by simpa using h)]
    rw [List.getLast?_cons]
    cases hl : (l.filter fun x => decide (x.1 ∈ names)).getLast? with
    | none => simp [h]
    | some y => simp
  · rw [if_neg (by simpa using h)]
    cases hl : (l.filter fun x => decide (x.1 ∈ names)).getLast? with
    | none => simp [h]
    | some y => simp

/-- A setting that only the options `names` touch is given by the last of them. -/
theorem applyOpts_field {β : Type} (f : CliOpts → β) (g : List Nat → β) (names : List (List Nat))
    (hstep : ∀ o o' x, applyOpt o x = some o' → f o' = if x.1 ∈ names then g x.2 else f o) :
    ∀ (opts : List (List Nat × List Nat)) (o o' : CliOpts), applyOpts o opts = some o' →
      f o' = match lastValue opts names with
        | some v => g v
        | none => f o := by
  intro opts
  induction opts with
  | nil => intro o o' h; simp only [applyOpts, Option.some.injEq] at h; subst h; rfl
  | cons x l ih =>
    intro o o' h
    rw [applyOpts] at h
    cases hx : applyOpt o x with
    | none => rw [hx] at h; simp at h
    | some o1 =>
      rw [hx] at h
      simp only at h
      rw [ih o1 o' h, lastValue_cons]
      cases lastValue l names with
      | some v => rfl
      | none =>
        simp only
        rw [hstep o o1 x hx]
        by_cases hn : x.1 ∈ names <;> simp [hn]

theorem find_key {α β : Type} [DecidableEq α] {t : List (α × β)} (hn : (t.map Prod.fst).Nodup) (a : α) (b : β) :
    (t.find? fun e => e.1 = a).map Prod.snd = some b ↔ (a, b) ∈ t := by
  induction t with
  | nil => simp
  | cons x l ih =>
    simp only [List.map_cons, List.nodup_cons] at hn
    rw [List.find?_cons]
    by_cases hx : x.1 = a
    · simp only [hx, decide_true, Option.map_some, Option.some.injEq, List.mem_cons]
      refine ⟨fun h => .inl (by rw [← h, ← hx]), ?_⟩
      rintro (h | h)
      · rw [← h]
      · exact absurd (List.mem_map.mpr ⟨_, h, hx.symm⟩) hn.1
    · simp only [hx, decide_false, List.mem_cons]
      rw [ih hn.2]
      refine ⟨.inr, ?_⟩
      rintro (h | h)
      · rw [← h] at hx; exact absurd rfl hx
      · exact h

theorem optKind_iff (opt : List Nat) (k : OptKind) : optKind opt = some k ↔ (opt, k) ∈ optTable :=
  find_key (by decide +kernel) opt k

/-- One setting after one option. -/
theorem applyOpt_field {β : Type} (f : CliOpts → β) (g : List Nat → β) (names : List (List Nat)) (k : OptKind)
    (hn : ∀ opt, (opt, k) ∈ optTable ↔ opt ∈ names)
    (hf : ∀ o o' x, applyOpt o x = some o' → f o' = if optKind x.1 = some k then g x.2 else f o) (o o' : CliOpts)
    (x : List Nat × List Nat) (h : applyOpt o x = some o') : f o' = if x.1 ∈ names then g x.2 else f o := by
  rw [hf o o' x h]
  have := hn x.1
  rw [← optKind_iff] at this
  by_cases hx : x.1 ∈ names
  · rw [if_pos hx, if_pos (this.mpr hx)]
  · rw [if_neg hx, if_neg (fun h => hx (this.mp h))]

theorem applyOpt_inputdir (o o' : CliOpts) (x : List Nat × List Nat) (h : applyOpt o x = some o') :
    o'.inputdir = if x.1 ∈ [bytes "-i", bytes "--inputdir"] then x.2 else o.inputdir := by
  refine applyOpt_field CliOpts.inputdir (fun v => v) _ .inputdir (by intro opt; simp [optTable]) ?_ o o' x h
  clear h x o o'
  intro o o' x h
  unfold applyOpt at h
  split at h <;> (try split at h) <;> simp_all <;> subst h <;> rfl

theorem applyOpt_sns (o o' : CliOpts) (x : List Nat × List Nat) (h : applyOpt o x = some o') :
    o'.sns = if x.1 ∈ [bytes "-s", bytes "--serialnumbers"] then some (splitComma x.2) else o.sns := by
  refine applyOpt_field CliOpts.sns (fun v => some (splitComma v)) _ .serialnumbers (by intro opt; simp [optTable]) ?_ o o' x h
  clear h x o o'
  intro o o' x h
  unfold applyOpt at h
  split at h <;> (try split at h) <;> simp_all <;> subst h <;> rfl

theorem applyOpt_exclude (o o' : CliOpts) (x : List Nat × List Nat) (h : applyOpt o x = some o') :
    o'.exclude = if x.1 ∈ [bytes "-x", bytes "--exclude_serialnumbers"] then splitComma x.2 else o.exclude := by
  refine applyOpt_field CliOpts.exclude (fun v => splitComma v) _ .exclude (by intro opt; simp [optTable]) ?_ o o' x h
  clear h x o o'
  intro o o' x h
  unfold applyOpt at h
  split at h <;> (try split at h) <;> simp_all <;> subst h <;> rfl

theorem applyOpt_codes (o o' : CliOpts) (x : List Nat × List Nat) (h : applyOpt o x = some o') :
    o'.codes = if x.1 ∈ [bytes "-c", bytes "--codesfile"] then some x.2 else o.codes := by
  refine applyOpt_field CliOpts.codes (fun v => some v) _ .codesfile (by intro opt; simp [optTable]) ?_ o o' x h
  clear h x o o'
  intro o o' x h
  unfold applyOpt at h
  split at h <;> (try split at h) <;> simp_all <;> subst h <;> rfl

theorem applyOpt_test (o o' : CliOpts) (x : List Nat × List Nat) (h : applyOpt o x = some o') :
    o'.test = if x.1 ∈ [bytes "-t", bytes "--test"] then true else o.test := by
  refine applyOpt_field CliOpts.test (fun v => true) _ .test (by intro opt; simp [optTable]) ?_ o o' x h
  clear h x o o'
  intro o o' x h
  unfold applyOpt at h
  split at h <;> (try split at h) <;> simp_all <;> subst h <;> rfl

theorem applyOpt_outputdir (o o' : CliOpts) (x : List Nat × List Nat) (h : applyOpt o x = some o') :
    o'.outputdir = if x.1 ∈ [bytes "-o", bytes "--outputdir"] then some x.2 else o.outputdir := by
  refine applyOpt_field CliOpts.outputdir (fun v => some v) _ .outputdir (by intro opt; simp [optTable]) ?_ o o' x h
  clear h x o o'
  intro o o' x h
  unfold applyOpt at h
  split at h <;> (try split at h) <;> simp_all <;> subst h <;> rfl

theorem applyOpt_format (o o' : CliOpts) (x : List Nat × List Nat) (h : applyOpt o x = some o') :
    o'.format = if x.1 ∈ [bytes "-f", bytes "--format"] then x.2 else o.format := by
  refine applyOpt_field CliOpts.format (fun v => v) _ .format (by intro opt; simp [optTable]) ?_ o o' x h
  clear h x o o'
  intro o o' x h
  unfold applyOpt at h
  split at h <;> (try split at h) <;> simp_all <;> subst h <;> rfl

theorem applyOpt_lengthHours (o o' : CliOpts) (x : List Nat × List Nat) (h : applyOpt o x = some o') :
    o'.lengthHours = if x.1 ∈ [bytes "-l", bytes "--length"] then some x.2 else o.lengthHours := by
  refine applyOpt_field CliOpts.lengthHours (fun v => some v) _ .length (by intro opt; simp [optTable]) ?_ o o' x h
  clear h x o o'
  intro o o' x h
  unfold applyOpt at h
  split at h <;> (try split at h) <;> simp_all <;> subst h <;> rfl

theorem applyOpts_processes : ∀ (opts : List (List Nat × List Nat)) (o o' : CliOpts), applyOpts o opts = some o' →
    o'.processes = (((opts.filter fun x => x.1 ∈ [bytes "-p", bytes "--parallel"]).filterMap fun x => pyInt x.2).getLast?).getD
      o.processes := by
  intro opts
  induction opts with
  | nil => intro o o' h; simp only [applyOpts, Option.some.injEq] at h; subst h; rfl
  | cons x l ih =>
    intro o o' h
    rw [applyOpts] at h
    cases hx : applyOpt o x with
    | none => rw [hx] at h; simp at h
    | some o1 =>
      rw [hx] at h
      rw [ih o1 o' h]
      have hk := optKind_iff x.1 .parallel
      have hm : (x.1, OptKind.parallel) ∈ optTable ↔ x.1 ∈ [bytes "-p", bytes "--parallel"] := by simp [optTable]
      rw [hm] at hk
      by_cases hp : x.1 ∈ [bytes "-p", bytes "--parallel"]
      · rw [List.filter_cons_of_pos (by simpa using hp)]
        unfold applyOpt at hx
        rw [hk.mpr hp] at hx
        simp only at hx
        rw [List.filterMap_cons]
        cases hv : pyInt x.2 with
        | none => rw [hv] at hx; cases hx; rfl
        | some n =>
          rw [hv] at hx
          cases hx
          simp only
          rw [List.getLast?_cons]
          simp
      · rw [List.filter_cons_of_neg (by simpa using hp)]
        have hk' : optKind x.1 ≠ some .parallel := fun h => hp (hk.mp h)
        have : o1.processes = o.processes := by
          unfold applyOpt at hx
          split at hx <;> (try split at hx) <;> simp_all <;> subst hx <;> rfl
        rw [this]

/-- **C59, settings.** What the options come to: each setting has the value of the last option of its name, or its
documented default; the number of processes is the last one given that is an integer. -/
theorem C59_settings (opts : List (List Nat × List Nat)) (o : CliOpts) (h : applyOpts {} opts = some o) :
    o.inputdir = (lastValue opts [bytes "-i", bytes "--inputdir"]).getD (bytes "raw") ∧
    o.sns = (lastValue opts [bytes "-s", bytes "--serialnumbers"]).map splitComma ∧
    o.exclude = ((lastValue opts [bytes "-x", bytes "--exclude_serialnumbers"]).map splitComma).getD [] ∧
    o.codes = lastValue opts [bytes "-c", bytes "--codesfile"] ∧
    o.test = (lastValue opts [bytes "-t", bytes "--test"]).isSome ∧
    o.outputdir = lastValue opts [bytes "-o", bytes "--outputdir"] ∧
    o.format = (lastValue opts [bytes "-f", bytes "--format"]).getD (bytes "MSEED") ∧
    o.lengthHours = lastValue opts [bytes "-l", bytes "--length"] ∧
    o.processes = (((opts.filter fun x => x.1 ∈ [bytes "-p", bytes "--parallel"]).filterMap fun x => pyInt x.2).getLast?).getD 1 := by
  refine ⟨?_, ?_, ?_, ?_, ?_, ?_, ?_, ?_, applyOpts_processes opts {} o h⟩
  · rw [applyOpts_field CliOpts.inputdir id _ applyOpt_inputdir opts {} o h]; cases lastValue opts _ <;> rfl
  · rw [applyOpts_field CliOpts.sns (fun v => some (splitComma v)) _ applyOpt_sns opts {} o h]; cases lastValue opts _ <;> rfl
  · rw [applyOpts_field CliOpts.exclude splitComma _ applyOpt_exclude opts {} o h]; cases lastValue opts _ <;> rfl
  · rw [applyOpts_field CliOpts.codes some _ applyOpt_codes opts {} o h]; cases lastValue opts _ <;> rfl
  · rw [applyOpts_field CliOpts.test (fun _ => true) _ applyOpt_test opts {} o h]; cases lastValue opts _ <;> rfl
  · rw [applyOpts_field CliOpts.outputdir some _ applyOpt_outputdir opts {} o h]; cases lastValue opts _ <;> rfl
  · rw [applyOpts_field CliOpts.format id _ applyOpt_format opts {} o h]; cases lastValue opts _ <;> rfl
  · rw [applyOpts_field CliOpts.lengthHours some _ applyOpt_lengthHours opts {} o h]; cases lastValue opts _ <;> rfl

/-- **C59, help.** The help text is printed exactly if one of the options asks for it. -/
theorem C59_help (opts : List (List Nat × List Nat)) (o : CliOpts) :
    applyOpts o opts = none ↔ ∃ x ∈ opts, x.1 = bytes "-h" ∨ x.1 = bytes "--help" := by
  induction opts generalizing o with
  | nil => simp [applyOpts]
  | cons x l ih =>
    rw [applyOpts]
    have hk := optKind_iff x.1 .help
    have hm : (x.1, OptKind.help) ∈ optTable ↔ x.1 = bytes "-h" ∨ x.1 = bytes "--help" := by simp [optTable]
    rw [hm] at hk
    by_cases hp : x.1 = bytes "-h" ∨ x.1 = bytes "--help"
    · have : applyOpt o x = none := by unfold applyOpt; rw [hk.mpr hp]
      rw [this]
      simp only [true_iff]
      exact ⟨x, by simp, hp⟩
    · have hk' : optKind x.1 ≠ some .help := fun h => hp (hk.mp h)
      obtain ⟨o1, h1⟩ : ∃ o1, applyOpt o x = some o1 := by
        unfold applyOpt
        split <;> (try split) <;> simp_all
      rw [h1]
      simp only [ih o1, List.mem_cons]
      constructor
      · rintro ⟨y, hy, h⟩; exact ⟨y, .inr hy, h⟩
      · rintro ⟨y, rfl | hy, h⟩
        · exact absurd h hp
        · exact ⟨y, hy, h⟩

/-! ## C59: lists of serial numbers -/

/-- **C59, lists.** A comma-separated list is taken apart at the commas: joining the pieces with commas gives the text
back, and no piece contains a comma. -/
theorem C59_comma_lists (s : List Nat) : List.intercalate [44] (splitComma s) = s ∧ ∀ p ∈ splitComma s, 44 ∉ p := by
  have key : ∀ (s cur : List Nat), 44 ∉ cur →
      List.intercalate [44] (splitCommaGo cur s) = cur ++ s ∧ ∀ p ∈ splitCommaGo cur s, 44 ∉ p := by
    intro s
    induction s with
    | nil => intro cur h; simpa [splitCommaGo, List.intercalate] using h
    | cons b l ih =>
      intro cur h
      rw [splitCommaGo]
      by_cases hb : b = 44
      · rw [if_pos hb]
        obtain ⟨h1, h2⟩ := ih [] (by simp)
        refine ⟨?_, ?_⟩
        · obtain ⟨y, t, hyt⟩ : ∃ y t, splitCommaGo [] l = y :: t := by
            cases hc : splitCommaGo [] l with
            | nil => exact absurd hc (by intro hc; rw [hc] at h1; cases l <;> simp_all [splitCommaGo, List.intercalate])
            | cons y t => exact ⟨y, t, rfl⟩
          rw [hyt] at h1 ⊢
          have : List.intercalate [44] (cur :: y :: t) = cur ++ [44] ++ List.intercalate [44] (y :: t) := by
            simp [List.intercalate]
          rw [this, h1, hb]
          simp
        · intro p hp
          rcases List.mem_cons.mp hp with rfl | hp
          · exact h
          · exact h2 p hp
      · rw [if_neg hb]
        obtain ⟨h1, h2⟩ := ih (cur ++ [b]) (by simp [h]; exact fun e => hb e.symm)
        refine ⟨by rw [h1]; simp, h2⟩
  have := key s [] (by simp)
  simpa [splitComma] using this

theorem strLt_iff : ∀ a b : List Nat, strLt a b = true ↔ a < b
  | [], [] => by simp [strLt]
  | [], _ :: _ => by simp [strLt]
  | _ :: _, [] => by simp [strLt]
  | a :: x, b :: y => by
    rw [strLt, List.cons_lt_cons_iff, ← strLt_iff x y]
    simp

theorem insertNew_mem (a : List Nat) : ∀ (l : List (List Nat)) (x : List Nat), x ∈ insertNew a l ↔ x = a ∨ x ∈ l
  | [], x => by simp [insertNew]
  | b :: l, x => by
    rw [insertNew]
    split
    · rename_i h; subst h; simp
    · split
      · simp
      · simp only [List.mem_cons, insertNew_mem a l x]
        tauto

theorem insertNew_sorted (a : List Nat) : ∀ (l : List (List Nat)), l.Pairwise (· < ·) → (insertNew a l).Pairwise (· < ·)
  | [], _ => by simp [insertNew]
  | b :: l, h => by
    rw [insertNew]
    obtain ⟨h1, h2⟩ := List.pairwise_cons.mp h
    split
    · exact h
    · rename_i hne
      split
      · rename_i hlt
        rw [strLt_iff] at hlt
        refine List.pairwise_cons.mpr ⟨?_, h⟩
        intro y hy
        rcases List.mem_cons.mp hy with rfl | hy
        · exact hlt
        · exact List.lt_trans hlt (h1 y hy)
      · rename_i hlt
        rw [strLt_iff] at hlt
        refine List.pairwise_cons.mpr ⟨?_, insertNew_sorted a l h2⟩
        intro y hy
        rcases (insertNew_mem a l y).mp hy with rfl | hy
        · rcases List.le_iff_lt_or_eq.mp (List.not_lt.mp hlt) with h | h
          · exact h
          · exact absurd h.symm hne
        · exact h1 y hy

theorem uniqueStr_mem : ∀ (l : List (List Nat)) (x : List Nat), x ∈ uniqueStr l ↔ x ∈ l
  | [], x => by simp [uniqueStr]
  | a :: l, x => by rw [uniqueStr, insertNew_mem, uniqueStr_mem l x]; simp

theorem uniqueStr_sorted : ∀ (l : List (List Nat)), (uniqueStr l).Pairwise (· < ·)
  | [] => by simp [uniqueStr]
  | a :: l => insertNew_sorted a _ (uniqueStr_sorted l)

/-! ## C59: the whole command line -/

/-- The value of the word, if it gives option `c` one. -/
def Word.valueFor (c : Nat) : Word → Option (List Nat)
  | .flag _ => none
  | .value d a => if d = c then some a else none
  | .glued d a => if d = c then some a else none

/-- The last value typed for option `c`. -/
def typedValue (ws : List Word) (c : Nat) : Option (List Nat) := (ws.filterMap (Word.valueFor c)).getLast?

theorem filter_meant (ws : List Word) (h : ∀ w ∈ ws, w.Valid) (c : Nat) (names : List (List Nat))
    (hc : c ∈ bytes "isxcoflp") (hn : ∀ d, [45, d] ∈ names ↔ d = c) :
    ((ws.map Word.meant).filter fun x => x.1 ∈ names).map Prod.snd = ws.filterMap (Word.valueFor c) := by
  induction ws with
  | nil => rfl
  | cons w ws ih =>
    have ih := ih fun x hx => h x (by simp [hx])
    have hw := h w (by simp)
    rw [List.map_cons, List.filterMap_cons]
    cases w with
    | flag d =>
      have hd : d ≠ c := by
        rintro rfl
        have h1 := (short_flag hw).1
        have h2 := (short_value hc).1
        rw [h1] at h2
        cases h2
      rw [List.filter_cons_of_neg (by simpa [Word.meant, hn] using hd), ih]
      rfl
    | value d a =>
      by_cases hd : d = c
      · rw [List.filter_cons_of_pos (by simpa [Word.meant, hn] using hd)]
        simp only [Word.valueFor, if_pos hd, List.map_cons, ih]
        rfl
      · rw [List.filter_cons_of_neg (by simpa [Word.meant, hn] using hd), ih]
        simp only [Word.valueFor, if_neg hd]
    | glued d a =>
      by_cases hd : d = c
      · rw [List.filter_cons_of_pos (by simpa [Word.meant, hn] using hd)]
        simp only [Word.valueFor, if_pos hd, List.map_cons, ih]
        rfl
      · rw [List.filter_cons_of_neg (by simpa [Word.meant, hn] using hd), ih]
        simp only [Word.valueFor, if_neg hd]

theorem lastValue_typed (ws : List Word) (h : ∀ w ∈ ws, w.Valid) (c : Nat) (names : List (List Nat))
    (hc : c ∈ bytes "isxcoflp") (hn : ∀ d, [45, d] ∈ names ↔ d = c) :
    lastValue (ws.map Word.meant) names = typedValue ws c := by
  unfold lastValue typedValue
  rw [← filter_meant ws h c names hc hn, List.getLast?_map]

theorem lastValue_flag (ws : List Word) (h : ∀ w ∈ ws, w.Valid) (c : Nat) (names : List (List Nat))
    (hc : c ∈ bytes "hdt") (hn : ∀ d, [45, d] ∈ names ↔ d = c) :
    (lastValue (ws.map Word.meant) names).isSome = true ↔ Word.flag c ∈ ws := by
  unfold lastValue
  rw [Option.isSome_map, List.getLast?_isSome]
  simp only [ne_eq, List.filter_eq_nil_iff, List.mem_map, decide_eq_true_eq, not_forall, not_not]
  constructor
  · rintro ⟨x, ⟨w, hw, rfl⟩, hx⟩
    cases w with
    | flag d =>
      rw [Word.meant, hn] at hx
      rw [← hx]; exact hw
    | value d a =>
      rw [Word.meant, hn] at hx
      have h1 := (short_value (h _ hw)).1
      rw [hx, (short_flag hc).1] at h1
      cases h1
    | glued d a =>
      rw [Word.meant, hn] at hx
      have h1 := (short_value (h _ hw).1).1
      rw [hx, (short_flag hc).1] at h1
      cases h1
  · intro hw
    exact ⟨_, ⟨_, hw, rfl⟩, (hn c).mpr rfl⟩

/-- The settings typed. -/
theorem typed_settings (ws : List Word) (h : ∀ w ∈ ws, w.Valid) (hh : Word.flag 104 ∉ ws) :
    ∃ o, applyOpts {} (ws.map Word.meant) = some o ∧
    o.inputdir = (typedValue ws 105).getD (bytes "raw") ∧ o.sns = (typedValue ws 115).map splitComma ∧
    o.exclude = ((typedValue ws 120).map splitComma).getD [] ∧ o.codes = typedValue ws 99 ∧
    (o.test = true ↔ Word.flag 116 ∈ ws) ∧ o.outputdir = typedValue ws 111 ∧
    o.format = (typedValue ws 102).getD (bytes "MSEED") ∧ o.lengthHours = typedValue ws 108 ∧
    o.processes = (((ws.filterMap (Word.valueFor 112)).filterMap pyInt).getLast?).getD 1 := by
  have hs : applyOpts {} (ws.map Word.meant) ≠ none := by
    intro hn
    rw [C59_help] at hn
    obtain ⟨x, hx, hx'⟩ := hn
    have hx'' : x.1 ∈ [bytes "-h", bytes "--help"] := by simpa using hx'
    refine hh ((lastValue_flag ws h 104 [bytes "-h", bytes "--help"] (by decide +kernel) ?_).mp ?_)
    · intro d
      rw [show [bytes "-h", bytes "--help"] = [[45, 104], [45, 45, 104, 101, 108, 112]] by decide +kernel]; simp
    · unfold lastValue
      rw [Option.isSome_map, List.getLast?_isSome]
      intro hn
      exact absurd (List.filter_eq_nil_iff.mp hn x hx) (by rw [not_not, decide_eq_true_eq]; exact hx'')
  obtain ⟨o, ho⟩ := Option.ne_none_iff_exists'.mp hs
  obtain ⟨h1, h2, h3, h4, h5, h6, h7, h8, h9⟩ := C59_settings _ _ ho
  rw [lastValue_typed ws h 105 _ (by decide +kernel) (by
    intro d
    rw [show [bytes "-i", bytes "--inputdir"] = [[45, 105], [45, 45, 105, 110, 112, 117, 116, 100, 105, 114]] by decide +kernel]
    simp)] at h1
  rw [lastValue_typed ws h 115 _ (by decide +kernel) (by
    intro d
    rw [show [bytes "-s", bytes "--serialnumbers"] =
      [[45, 115], [45, 45, 115, 101, 114, 105, 97, 108, 110, 117, 109, 98, 101, 114, 115]] by decide +kernel]
    simp)] at h2
  rw [lastValue_typed ws h 120 _ (by decide +kernel) (by
    intro d
    rw [show bytes "-x" = [45, 120] by decide +kernel, show bytes "--exclude_serialnumbers" = 45 :: 45 :: 101 :: bytes "xclude_serialnumbers" by
      decide +kernel]
    simp)] at h3
  rw [lastValue_typed ws h 99 _ (by decide +kernel) (by
    intro d
    rw [show bytes "-c" = [45, 99] by decide +kernel, show bytes "--codesfile" = 45 :: 45 :: 99 :: bytes "odesfile" by decide +kernel]
    simp)] at h4
  rw [lastValue_typed ws h 111 _ (by decide +kernel) (by
    intro d
    rw [show bytes "-o" = [45, 111] by decide +kernel, show bytes "--outputdir" = 45 :: 45 :: 111 :: bytes "utputdir" by decide +kernel]
    simp)] at h6
  rw [lastValue_typed ws h 102 _ (by decide +kernel) (by
    intro d
    rw [show bytes "-f" = [45, 102] by decide +kernel, show bytes "--format" = 45 :: 45 :: 102 :: bytes "ormat" by decide +kernel]
    simp)] at h7
  rw [lastValue_typed ws h 108 _ (by decide +kernel) (by
    intro d
    rw [show bytes "-l" = [45, 108] by decide +kernel, show bytes "--length" = 45 :: 45 :: 108 :: bytes "ength" by decide +kernel]
    simp)] at h8
  have h5' : o.test = true ↔ Word.flag 116 ∈ ws := by
    rw [h5]
    refine lastValue_flag ws h 116 _ (by decide +kernel) ?_
    intro d
    rw [show bytes "-t" = [45, 116] by decide +kernel, show bytes "--test" = 45 :: 45 :: 116 :: bytes "est" by decide +kernel]
    simp
  refine ⟨o, ho, h1, h2, h3, h4, h5', h6, h7, h8, ?_⟩
  rw [h9, ← filter_meant ws h 112 [bytes "-p", bytes "--parallel"] (by decide +kernel) (by
    intro d
    rw [show bytes "-p" = [45, 112] by decide +kernel, show bytes "--parallel" = 45 :: 45 :: 112 :: bytes "arallel" by decide +kernel]
    simp)]
  rw [List.filterMap_map]
  rfl

/-- The number of processes typed. -/
def typedProcesses (ws : List Word) : Int := (((ws.filterMap (Word.valueFor 112)).filterMap pyInt).getLast?).getD 1

/-- The serial numbers wanted: those listed with `-s`, otherwise characters 9 to 12 of every file name in the input
folder; and not listed with `-x`. -/
def WantedSNs (ws : List Word) (files : List (List Nat)) (s : List Nat) : Prop :=
  (match typedValue ws 115 with
    | some l => s ∈ splitComma l
    | none => ∃ f ∈ files, s = (f.drop 9).take 4) ∧
  ¬ ∃ l, typedValue ws 120 = some l ∧ s ∈ splitComma l

theorem serialNumbers_spec (o : CliOpts) (files : List (List Nat)) (ws : List Word)
    (h2 : o.sns = (typedValue ws 115).map splitComma) (h3 : o.exclude = ((typedValue ws 120).map splitComma).getD []) :
    (serialNumbers o files).Pairwise (· < ·) ∧ ∀ s, s ∈ serialNumbers o files ↔ WantedSNs ws files s := by
  unfold serialNumbers
  refine ⟨?_, ?_⟩
  · apply List.Pairwise.filter
    split <;> exact uniqueStr_sorted _
  · intro s
    rw [List.mem_filter, h3]
    unfold WantedSNs
    refine and_congr ?_ ?_
    · rw [h2]
      cases typedValue ws 115 with
      | none => simp only [Option.map_none, uniqueStr_mem, List.mem_map, findSN, eq_comm]
      | some l => simp only [Option.map_some, uniqueStr_mem]
    · cases typedValue ws 120 <;> simp

/-- The arguments of a conversion. -/
def jobFor (ws : List Word) (s : List Nat) (network station location : List Nat) : ConvArgs :=
  { inputdir := (typedValue ws 105).getD (bytes "raw"), sn := s,
    outputdir := (typedValue ws 111).getD (lower ((typedValue ws 102).getD (bytes "MSEED"))),
    format := (typedValue ws 102).getD (bytes "MSEED"), lengthHours := typedValue ws 108,
    network := network, station := station, location := location }

/-- **C59.** With documented short options in any order and number (without `-h` and `-c`), and an input folder that can be
listed: the serial numbers wanted are treated in increasing order, each once. With `-t` they are only listed. Otherwise each
is converted with the last input folder, output folder, format and length given, or the defaults, on the number of processes
given. Missing: the long forms of the options, which do not work (`C59_violated_long_forms`), and a number of processes
below one (`C59_violated_processes`). -/
theorem C59_command_line_partial (ws : List Word) (hv : ∀ w ∈ ws, w.Valid) (hh : Word.flag 104 ∉ ws) (env : CliEnv)
    (files : List (List Nat)) (hdir : env.listdir ((typedValue ws 105).getD (bytes "raw")) = some files)
    (hne : ws ≠ [] ∨ files ≠ []) (hcodes : typedValue ws 99 = none) :
    ∃ sns : List (List Nat), sns.Pairwise (· < ·) ∧ (∀ s, s ∈ sns ↔ WantedSNs ws files s) ∧
      (Word.flag 116 ∈ ws → gemconvert env (ws.flatMap Word.typed) = .listed sns) ∧
      (Word.flag 116 ∉ ws → 0 < typedProcesses ws →
        gemconvert env (ws.flatMap Word.typed) = .run (sns.map fun s => jobFor ws s [] [] []) (typedProcesses ws)) := by
  obtain ⟨o, ho, h1, h2, h3, h4, h5, h6, h7, h8, h9⟩ := typed_settings ws hv hh
  obtain ⟨k1, k2⟩ := serialNumbers_spec o files ws h2 h3
  have hne' : ¬ (o.sns = none ∧ files = [] ∧ ws.map Word.meant = []) := by
    rintro ⟨_, hf, hw⟩
    rcases hne with h | h
    · exact h (List.map_eq_nil_iff.mp hw)
    · exact h hf
  have hrun : gemconvert env (ws.flatMap Word.typed) =
      launch o ((serialNumbers o files).map fun s => (s, ⟨[], [], [], []⟩)) := by
    unfold gemconvert
    rw [C59_short_forms ws hv]
    simp only [ho]
    rw [h1, hdir]
    simp only [if_neg hne', h4, hcodes]
  refine ⟨serialNumbers o files, k1, k2, ?_, ?_⟩
  · intro ht
    rw [hrun]
    unfold launch
    rw [if_pos (h5.mpr ht)]
    simp [List.map_map, Function.comp_def]
  · intro ht hp
    rw [hrun]
    unfold launch
    rw [if_neg (fun h => ht (h5.mp h)), if_neg (by rw [h9]; unfold typedProcesses at hp; omega)]
    simp only [List.map_map]
    rw [h9, h6, h7, h8, h1]
    rfl

/-- A run with several options; the second `-i` counts, 034 is excluded, and a stray file gives the empty serial number. -/
example :
    let ws := [Word.value 105 (bytes "a"), .value 112 (bytes "4"), .value 120 (bytes "034"), .glued 105 (bytes "b")]
    let env : CliEnv := ⟨fun d => if d = bytes "b" then
      some [bytes "FILE0001.034", bytes "FILE0001.012", bytes "FILE0000.012", bytes "notes"] else none, fun _ => none⟩
    (∀ w ∈ ws, w.Valid) ∧ typedProcesses ws = 4 ∧
    gemconvert env (ws.flatMap Word.typed) = .run [⟨bytes "b", [], bytes "mseed", bytes "MSEED", none, [], [], []⟩,
      ⟨bytes "b", bytes "012", bytes "mseed", bytes "MSEED", none, [], [], []⟩] 4 := by
  refine ⟨?_, by decide +kernel, by decide +kernel⟩
  intro w hw
  simp only [List.mem_cons, List.not_mem_nil, or_false] at hw
  rcases hw with rfl | rfl | rfl | rfl
  · show 105 ∈ bytes "isxcoflp"; decide +kernel
  · show 112 ∈ bytes "isxcoflp"; decide +kernel
  · show 120 ∈ bytes "isxcoflp"; decide +kernel
  · exact ⟨by decide +kernel, by decide +kernel⟩

/-- **C59, all instruments.** By default every instrument with a raw file named by its serial number is converted: the
serial number of `FILEnnnn.sss` is `sss`. -/
theorem C59_default_all (num sn : List Nat) (files : List (List Nat)) (hnum : num.length = 4) (hsn : sn.length = 3)
    (ws : List Word) (h115 : typedValue ws 115 = none) (h120 : typedValue ws 120 = none)
    (hf : bytes "FILE" ++ num ++ bytes "." ++ sn ∈ files) : WantedSNs ws files sn := by
  unfold WantedSNs
  rw [h115, h120]
  refine ⟨⟨_, hf, ?_⟩, by simp⟩
  rw [show bytes "FILE" = [70, 73, 76, 69] by decide +kernel, show bytes "." = [46] by decide +kernel]
  match num, hnum with
  | [a, b, c, d], _ => simp [List.take_of_length_le (show sn.length ≤ 4 by omega)]

example : WantedSNs [] [bytes "FILE0001.034", bytes "FILE0001.012"] (bytes "012") :=
  C59_default_all (bytes "0001") (bytes "012") _ (by decide +kernel) (by decide +kernel) [] rfl rfl (by decide +kernel)

/-- **C59, the long form of `-i`.** The folder can also be named by `--inputdir` or the beginning of it, as the next word or after `=`,
between any other options. -/
theorem C59_inputdir_long (pre post : List Word) (h1 : ∀ w ∈ pre, w.Valid) (h2 : ∀ w ∈ post, w.Valid) (p : List Nat) (hp : p ≠ [])
    (hpre : p <+: bytes "inputdir") (v : List Nat) :
    getopt convertShort convertLong (pre.flatMap Word.typed ++ (bytes "--" ++ p ++ bytes "=" ++ v) :: post.flatMap Word.typed) =
      some (pre.map Word.meant ++ (bytes "--inputdir", v) :: post.map Word.meant) ∧
    getopt convertShort convertLong (pre.flatMap Word.typed ++ (bytes "--" ++ p) :: v :: post.flatMap Word.typed) =
      some (pre.map Word.meant ++ (bytes "--inputdir", v) :: post.map Word.meant) := by
  have hpost : ∀ fuel, (post.flatMap Word.typed).length ≤ fuel → getoptGo convertShort convertLong fuel (post.flatMap Word.typed) = some (post.map Word.meant) := by
    intro fuel hf
    have := getopt_words (tail := []) (fun fuel _ => by cases fuel <;> rfl) post fuel h2 (by simpa using hf)
    simpa using this
  have hall : ∀ q ∈ (bytes "inputdir").inits, q ≠ [] → 61 ∉ q ∧ longHasArgs q convertLong = some (true, bytes "inputdir") := by decide +kernel
  obtain ⟨hn, hl⟩ := hall p ((List.mem_inits _ _).mpr hpre) hp
  obtain ⟨c, p', rfl⟩ := List.exists_cons_of_ne_nil hp
  have hdash : bytes "--" = [45, 45] := by decide +kernel
  have hname : bytes "--inputdir" = 45 :: 45 :: bytes "inputdir" := by decide +kernel
  have heq : bytes "=" = [61] := by decide +kernel
  rw [hdash, hname, heq]
  refine ⟨getopt_words_then (fun fuel hf => ?_) pre _ h1 (Nat.le_refl _), getopt_words_then (fun fuel hf => ?_) pre _ h1 (Nat.le_refl _)⟩
  · obtain ⟨f, rfl⟩ : ∃ f, fuel = f + 1 := ⟨fuel - 1, by simp only [List.length_cons] at hf; omega⟩
    have ht : ((c :: p') ++ 61 :: v).takeWhile (fun c => decide (c ≠ 61)) = c :: p' := by
      rw [List.takeWhile_append_of_pos]
      · simp
      · intro x hx
        simp only [decide_eq_true_eq]
        rintro rfl
        exact hn hx
    have hd : doLongs convertLong ((c :: p') ++ 61 :: v) (post.flatMap Word.typed) = some ((45 :: 45 :: bytes "inputdir", v), post.flatMap Word.typed) := by
      unfold doLongs
      simp only [ht, hl]
      rw [if_pos (by simp)]
      simp
    rw [show [45, 45] ++ (c :: p') ++ [61] ++ v = 45 :: 45 :: ((c :: p') ++ 61 :: v) by simp, getoptGo, if_neg (by simp), if_pos (by simp)]
    rw [show (45 :: 45 :: ((c :: p') ++ 61 :: v)).drop 2 = (c :: p') ++ 61 :: v from rfl, hd]
    simp only
    rw [hpost f (by simp only [List.length_cons] at hf; omega)]
    rfl
  · obtain ⟨f, rfl⟩ : ∃ f, fuel = f + 1 := ⟨fuel - 1, by simp only [List.length_cons] at hf; omega⟩
    have ht : (c :: p').takeWhile (fun c => decide (c ≠ 61)) = c :: p' := by
      rw [← List.append_nil (c :: p'), List.takeWhile_append_of_pos, List.takeWhile_nil]
      intro x hx
      simp only [decide_eq_true_eq]
      rintro rfl
      exact hn hx
    have hd : doLongs convertLong (c :: p') (v :: post.flatMap Word.typed) = some ((45 :: 45 :: bytes "inputdir", v), post.flatMap Word.typed) := by
      unfold doLongs
      simp only [ht, hl]
      rw [if_neg hn]
    rw [show [45, 45] ++ (c :: p') = 45 :: 45 :: (c :: p') by simp, getoptGo, if_neg (by simp), if_pos (by simp)]
    rw [show (45 :: 45 :: (c :: p')).drop 2 = c :: p' from rfl, hd]
    simp only
    rw [hpost f (by simp only [List.length_cons] at hf; omega)]
    rfl

example : getopt convertShort convertLong [bytes "-t", bytes "--inp=data", bytes "-p", bytes "3"] =
    some [(bytes "-t", []), (bytes "--inputdir", bytes "data"), (bytes "-p", bytes "3")] :=
  (C59_inputdir_long [.flag 116] [.value 112 (bytes "3")] (by intro w hw; rw [List.mem_singleton] at hw; subst hw; show 116 ∈ bytes "hdt"; decide +kernel)
    (by intro w hw; rw [List.mem_singleton] at hw; subst hw; show 112 ∈ bytes "isxcoflp"; decide +kernel) (bytes "inp") (by decide +kernel)
    (by decide +kernel) (bytes "data")).1

/-- **C59 is violated by the long forms.** Of the documented long options (`--serialnumbers`, `--exclude_serialnumbers`,
`--outputdir`, `--format`, `--length`, `--test`, `--parallel`, `--help`) none is accepted: the program prints the call and ends,
whatever the value and the surroundings. -/
theorem C59_violated_long_forms (env : CliEnv) (v : List Nat) :
    ∀ o ∈ [bytes "--serialnumbers", bytes "--exclude_serialnumbers", bytes "--outputdir", bytes "--format", bytes "--length",
      bytes "--test", bytes "--parallel", bytes "--help"], gemconvert env [o, v] = .usage := by
  have key : ∀ o : List Nat, o ≠ [45, 45] → o.take 2 = [45, 45] → longHasArgs ((o.drop 2).takeWhile fun c => c ≠ 61) convertLong = none →
      gemconvert env [o, v] = .usage := by
    intro o h1 h2 h3
    have : getopt convertShort convertLong [o, v] = none := by
      unfold getopt
      rw [List.length_cons, getoptGo, if_neg h1, if_pos h2]
      unfold doLongs
      simp only [h3]
    unfold gemconvert
    rw [this]
  intro o ho
  refine key o ?_ ?_ ?_ <;> clear key <;> revert o <;> decide +kernel

/-- **C59 is violated by `--serialnumber`.** It is accepted, and its value ignored: all instruments present are converted. -/
theorem C59_violated_serialnumber (env : CliEnv) (v : List Nat) (files : List (List Nat))
    (hdir : env.listdir (bytes "raw") = some files) :
    gemconvert env [bytes "--serialnumber", v] =
      .run ((serialNumbers {} files).map fun s => jobFor [] s [] [] []) 1 := by
  have h1 : getopt convertShort convertLong [bytes "--serialnumber", v] = some [(bytes "--serialnumber", v)] := by
    unfold getopt
    rw [List.length_cons, getoptGo, if_neg (by decide +kernel), if_pos (by decide +kernel)]
    unfold doLongs
    have e1 : longHasArgs (((bytes "--serialnumber").drop 2).takeWhile fun c => c ≠ 61) convertLong =
        some (true, bytes "serialnumber") := by decide +kernel
    have e2 : ¬ 61 ∈ (bytes "--serialnumber").drop 2 := by decide +kernel
    simp only [e1, if_neg e2]
    simp only [List.length_cons, List.length_nil, getoptGo, Option.map_some]
    rw [show (45 :: 45 :: bytes "serialnumber") = bytes "--serialnumber" by decide +kernel]
  have h2 : applyOpts {} [(bytes "--serialnumber", v)] = some {} := by
    have : optKind (bytes "--serialnumber") = none := by decide +kernel
    simp only [applyOpts, applyOpt, this]
  unfold gemconvert
  rw [h1]
  simp only [h2, hdir]
  rw [if_neg (by simp)]
  simp only [launch, Bool.false_eq_true, if_false, List.map_map]
  rfl

example : gemconvert ⟨fun _ => some [bytes "FILE0001.034", bytes "FILE0001.012"], fun _ => none⟩ [bytes "--serialnumber", bytes "034"] =
    .run [jobFor [] (bytes "012") [] [] [], jobFor [] (bytes "034") [] [] []] 1 := by
  decide +kernel

/-- **C59 is violated by `-p 0`:** an uncaught exception, nothing is converted. -/
theorem C59_violated_processes : ∃ (env : CliEnv), gemconvert env [bytes "-p", bytes "0"] = .crash ∧
    gemconvert env [bytes "-p", bytes "1"] = .run [jobFor [] (bytes "012") [] [] []] 1 :=
  ⟨⟨fun _ => some [bytes "FILE0001.012"], fun _ => none⟩, by decide +kernel, by decide +kernel⟩

/-- **C59 is violated by raw files named `.TXT`.** Instrument software may name raw files `FILEnnnn.TXT` (accepted elsewhere:
core.py:152-153); the serial number is then in the file. By default `gemconvert` takes `TXT` for the serial number and does not
look for the instrument. -/
theorem C59_violated_txt (num : List Nat) (hnum : num.length = 4) :
    serialNumbers {} [bytes "FILE" ++ num ++ bytes ".TXT"] = [bytes "TXT"] := by
  rw [show bytes "FILE" = [70, 73, 76, 69] by decide +kernel, show bytes ".TXT" = [46, 84, 88, 84] by decide +kernel,
    show bytes "TXT" = [84, 88, 84] by decide +kernel]
  match num, hnum with
  | [a, b, c, d], _ => simp [serialNumbers, uniqueStr, insertNew, findSN]

/-! ## C47 -/

/-- The first row of the table with serial number `n`. -/
def FirstRow (table : List CodeRow) (n : Int) (r : CodeRow) : Prop :=
  ∃ before after, table = before ++ r :: after ∧ pyInt r.sn = some n ∧ ∀ q ∈ before, pyInt q.sn ≠ some n

theorem find_firstRow (table : List CodeRow) (n : Int) (r : CodeRow) :
    (table.find? fun q => pyInt q.sn = some n) = some r ↔ FirstRow table n r := by
  rw [List.find?_eq_some_iff_append]
  unfold FirstRow
  constructor
  · rintro ⟨h, a, b, e, hb⟩
    exact ⟨a, b, e, by simpa using h, fun q hq => by simpa using hb q hq⟩
  · rintro ⟨a, b, e, h, hb⟩
    exact ⟨by simpa using h, a, b, e, fun q hq => by simpa using hb q hq⟩

theorem matchCodes_spec (table : List CodeRow) (ht : ∀ r ∈ table, (pyInt r.sn).isSome) :
    ∀ (sns : List (List Nat)), (∀ s ∈ sns, (pyInt s).isSome) →
      ∃ m, matchCodes table sns = some m ∧
        m.map Prod.fst = sns.filter (fun s => table.any fun r => pyInt r.sn == pyInt s) ∧
        ∀ x ∈ m, ∃ n, pyInt x.1 = some n ∧ FirstRow table n x.2 := by
  intro sns
  induction sns with
  | nil => intro _; exact ⟨[], rfl, rfl, by simp⟩
  | cons s l ih =>
    intro h
    obtain ⟨m, hm, hl, hr⟩ := ih fun x hx => h x (by simp [hx])
    obtain ⟨n, hn⟩ := Option.isSome_iff_exists.mp (h s (by simp))
    have htab : (table.all fun r => (pyInt r.sn).isSome) = true := by simpa using ht
    rw [matchCodes, hn]
    simp only [findRow, if_pos htab]
    cases hf : table.find? fun q => decide (pyInt q.sn = some n) with
    | none =>
      refine ⟨m, hm, ?_, hr⟩
      rw [List.filter_cons_of_neg, hl]
      rw [hn]
      simpa using hf
    | some r =>
      refine ⟨(s, r) :: m, by rw [hm]; rfl, ?_, ?_⟩
      · rw [List.filter_cons_of_pos, List.map_cons, hl]
        rw [hn]
        have := List.find?_some hf
        simp only [List.any_eq_true, beq_iff_eq]
        exact ⟨r, List.mem_of_find?_eq_some hf, by simpa using this⟩
      · intro x hx
        rcases List.mem_cons.mp hx with rfl | hx
        · exact ⟨n, hn, (find_firstRow table n r).mp hf⟩
        · exact hr x hx

/-- **C47.** With a codes file whose serial numbers are numbers, and if all serial numbers wanted are numbers: the
conversions are those of the wanted serial numbers that have a row in the table (the same number, leading zeros not
mattering), in increasing order, the others being skipped; and each gets network, station and location from the first row with
its number. Missing: raw folders with other files in them (`C47_violated_stray`). -/
theorem C47_codes_partial (ws : List Word) (hv : ∀ w ∈ ws, w.Valid) (hh : Word.flag 104 ∉ ws) (ht : Word.flag 116 ∉ ws)
    (hp : 0 < typedProcesses ws) (env : CliEnv) (files : List (List Nat))
    (hdir : env.listdir ((typedValue ws 105).getD (bytes "raw")) = some files)
    (codesfile : List Nat) (hcodes : typedValue ws 99 = some codesfile) (table : List CodeRow)
    (htab : env.codes codesfile = some table) (hnum : ∀ r ∈ table, (pyInt r.sn).isSome)
    (hwant : ∀ s, WantedSNs ws files s → (pyInt s).isSome) :
    ∃ sns jobs : List _, gemconvert env (ws.flatMap Word.typed) = .run jobs (typedProcesses ws) ∧
      (sns.Pairwise (· < ·) ∧ ∀ s, s ∈ sns ↔ WantedSNs ws files s ∧ ∃ r ∈ table, pyInt r.sn = pyInt s) ∧
      jobs.map ConvArgs.sn = sns ∧
      ∀ j ∈ jobs, ∃ n r, pyInt j.sn = some n ∧ FirstRow table n r ∧ j = jobFor ws j.sn r.network r.station r.location := by
  obtain ⟨o, ho, h1, h2, h3, h4, h5, h6, h7, h8, h9⟩ := typed_settings ws hv hh
  obtain ⟨k1, k2⟩ := serialNumbers_spec o files ws h2 h3
  have hne' : ¬ (o.sns = none ∧ files = [] ∧ ws.map Word.meant = []) := by
    rintro ⟨_, _, hw⟩
    rw [List.map_eq_nil_iff] at hw
    rw [hw] at hcodes
    cases hcodes
  obtain ⟨m, hm, hl, hr⟩ := matchCodes_spec table hnum (serialNumbers o files) fun s hs => hwant s ((k2 s).mp hs)
  have hrun : gemconvert env (ws.flatMap Word.typed) = launch o m := by
    unfold gemconvert
    rw [C59_short_forms ws hv]
    simp only [ho]
    rw [h1, hdir]
    simp only [if_neg hne', h4, hcodes, htab, hm]
  refine ⟨m.map Prod.fst, m.map fun s => jobFor ws s.1 s.2.network s.2.station s.2.location, ?_, ⟨?_, ?_⟩, ?_, ?_⟩
  · rw [hrun]
    unfold launch
    rw [if_neg (fun h => ht (h5.mp h)), if_neg (by rw [h9]; unfold typedProcesses at hp; omega)]
    rw [h9, h6, h7, h8, h1]
    rfl
  · rw [hl]; exact k1.filter _
  · intro s
    rw [hl, List.mem_filter, k2 s]
    simp
  · rw [List.map_map]; rfl
  · intro j hj
    obtain ⟨x, hx, rfl⟩ := List.mem_map.mp hj
    obtain ⟨n, hn, hf⟩ := hr x hx
    exact ⟨n, x.2, hn, hf, rfl⟩

/-- Two rows for 12, one for 34; 056 has none. -/
def demoCodes : List CodeRow :=
  [⟨bytes "12", bytes "XP", bytes "AAA", bytes "01"⟩, ⟨bytes "034", bytes "XP", bytes "BBB", []⟩,
    ⟨bytes "012", bytes "YY", bytes "CCC", []⟩]

example :
    let ws := [Word.value 99 (bytes "codes.txt")]
    let files := [bytes "FILE0001.056", bytes "FILE0001.034", bytes "FILE0001.012", bytes "FILE0002.012"]
    let env : CliEnv := ⟨fun _ => some files, fun _ => some demoCodes⟩
    (∀ r ∈ demoCodes, (pyInt r.sn).isSome) ∧ (∀ s, WantedSNs ws files s → (pyInt s).isSome) ∧
    gemconvert env (ws.flatMap Word.typed) = .run [jobFor ws (bytes "012") (bytes "XP") (bytes "AAA") (bytes "01"),
      jobFor ws (bytes "034") (bytes "XP") (bytes "BBB") []] 1 := by
  refine ⟨by decide +kernel, ?_, by decide +kernel⟩
  rintro s ⟨⟨f, hf, rfl⟩, _⟩
  revert f
  decide +kernel

/-- **C47 is violated by stray files.** If the input folder contains any file whose characters 9 to 12 are not a number (such
as `FILE0003.TXT`, `notes` or `.DS_Store`), then with a codes file the program ends by an uncaught exception and nothing at all
is converted, whatever the other files and the table are. -/
theorem C47_violated_stray (env : CliEnv) (codesfile : List Nat) (files : List (List Nat)) (table : List CodeRow)
    (hdir : env.listdir (bytes "raw") = some files) (htab : env.codes codesfile = some table)
    (f : List Nat) (hf : f ∈ files) (hbad : pyInt ((f.drop 9).take 4) = none) :
    gemconvert env [bytes "-c", codesfile] = .crash := by
  have hv : ∀ w ∈ [Word.value 99 codesfile], w.Valid := by
    intro w hw
    rw [List.mem_singleton.mp hw]
    show 99 ∈ bytes "isxcoflp"
    decide +kernel
  obtain ⟨o, ho, h1, h2, h3, h4, h5, h6, h7, h8, h9⟩ := typed_settings [Word.value 99 codesfile] hv (by simp)
  obtain ⟨k1, k2⟩ := serialNumbers_spec o files _ h2 h3
  have hmem : (f.drop 9).take 4 ∈ serialNumbers o files := by
    rw [k2]
    exact ⟨⟨f, hf, rfl⟩, by rintro ⟨l, hl, _⟩; cases hl⟩
  have hnone : ∀ sns : List (List Nat), (f.drop 9).take 4 ∈ sns → matchCodes table sns = none := by
    intro sns
    induction sns with
    | nil => simp
    | cons s l ih =>
      intro h
      rw [matchCodes]
      cases hs : pyInt s with
      | none => rfl
      | some n =>
        have : (f.drop 9).take 4 ∈ l := by
          rcases List.mem_cons.mp h with e | h
          · rw [← e, hbad] at hs; cases hs
          · exact h
        have hn := ih this
        simp only
        split
        · rfl
        · rw [hn]; rfl
        · exact hn
  have e : [bytes "-c", codesfile] = [Word.value 99 codesfile].flatMap Word.typed := by
    rw [show bytes "-c" = [45, 99] by decide +kernel]; rfl
  rw [e]
  unfold gemconvert
  rw [C59_short_forms _ hv]
  simp only [ho]
  have hi : o.inputdir = bytes "raw" := h1
  rw [hi, hdir]
  have hne' : ¬ (o.sns = none ∧ files = [] ∧ [Word.value 99 codesfile].map Word.meant = []) := by
    rintro ⟨_, _, hw⟩
    cases hw
  simp only [if_neg hne']
  have hc : o.codes = some codesfile := h4
  simp only [hc, htab, hnone _ hmem]

example : gemconvert ⟨fun _ => some [bytes "FILE0001.034", bytes "notes"], fun _ => some demoCodes⟩ [bytes "-c", bytes "c"] = .crash ∧
    pyInt (((bytes "notes").drop 9).take 4) = none := by
  decide +kernel

end Gemlog
