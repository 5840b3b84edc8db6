import Verif.Model.HuddleCli
import Verif.Spec.HuddleCli
import Verif.Props.Cli
import Verif.Props.Huddle
import Verif.Lemmas.OldReader

/-!
# C96: the command line of verify_huddle_test
-/

namespace Gemlog

/-- The option as `getopt` gives it. -/
def HuddleWord.meant : HuddleWord → List Nat × List Nat
  | .flag c _ => ([45, c], [])
  | .value c _ a => ([45, c], a)
  | .glued c _ a _ => ([45, c], a)
  | .long a => (bytes "--inputdir", a)
  | .longEq a => (bytes "--inputdir", a)

theorem huddle_flag {c : Nat} (h : c ∈ bytes "hdt") : shortHasArg c huddleShort = some false ∧ c ≠ 45 := by
  rw [show bytes "hdt" = [104, 100, 116] by decide +kernel] at h
  simp only [List.mem_cons, List.not_mem_nil, or_false] at h
  rcases h with rfl | rfl | rfl <;> decide +kernel

theorem huddle_value {c : Nat} (h : c ∈ bytes "isxoflp") : shortHasArg c huddleShort = some true ∧ c ≠ 45 := by
  rw [show bytes "isxoflp" = [105, 115, 120, 111, 102, 108, 112] by decide +kernel] at h
  simp only [List.mem_cons, List.not_mem_nil, or_false] at h
  rcases h with rfl | rfl | rfl | rfl | rfl | rfl | rfl <;> decide +kernel

theorem inputdir_long (a : List Nat) (args : List (List Nat)) :
    doLongs huddleLong (bytes "inputdir") (a :: args) = some ((bytes "--inputdir", a), args) := by
  have h1 : (bytes "inputdir").takeWhile (fun c => c ≠ 61) = bytes "inputdir" := by decide +kernel
  have h2 : 61 ∉ bytes "inputdir" := by decide +kernel
  have h3 : longHasArgs (bytes "inputdir") huddleLong = some (true, bytes "inputdir") := by decide +kernel
  unfold doLongs
  simp only [h1, if_neg h2, h3]
  rfl

theorem inputdir_longEq (a : List Nat) (args : List (List Nat)) :
    doLongs huddleLong (bytes "inputdir=" ++ a) args = some ((bytes "--inputdir", a), args) := by
  have h0 : bytes "inputdir=" = bytes "inputdir" ++ [61] := by decide +kernel
  have h4 : ∀ c ∈ bytes "inputdir", decide (c ≠ 61) = true := by decide +kernel
  have h1 : (bytes "inputdir=" ++ a).takeWhile (fun c => c ≠ 61) = bytes "inputdir" := by
    rw [h0, List.append_assoc, List.takeWhile_append_of_pos h4]
    simp
  have h2 : 61 ∈ bytes "inputdir=" ++ a := by rw [h0]; simp
  have h3 : longHasArgs (bytes "inputdir") huddleLong = some (true, bytes "inputdir") := by decide +kernel
  have h5 : (bytes "inputdir=" ++ a).drop ((bytes "inputdir").length + 1) = a := by
    rw [h0, show (bytes "inputdir").length + 1 = (bytes "inputdir" ++ [61]).length by simp]
    exact List.drop_left
  unfold doLongs
  simp only [h1, if_pos h2, h3, h5]
  rfl

theorem getopt_huddle {tail : List (List Nat)} {R : Option (List (List Nat × List Nat))}
    (hstop : ∀ fuel, tail.length ≤ fuel → getoptGo huddleShort huddleLong fuel tail = R) :
    ∀ (ws : List HuddleWord) (fuel : Nat), (ws.flatMap HuddleWord.typed ++ tail).length ≤ fuel →
      getoptGo huddleShort huddleLong fuel (ws.flatMap HuddleWord.typed ++ tail) = R.map fun r => ws.map HuddleWord.meant ++ r := by
  intro ws
  induction ws with
  | nil =>
    intro fuel hl
    rw [List.flatMap_nil, List.nil_append, hstop fuel (by simpa using hl)]
    cases R <;> rfl
  | cons w ws ih =>
    intro fuel hl
    rw [List.flatMap_cons, List.append_assoc] at hl ⊢
    cases w with
    | flag c hc =>
      obtain ⟨h1, h2⟩ := huddle_flag hc
      simp only [HuddleWord.typed, List.length_append, List.length_cons, List.length_nil] at hl
      obtain ⟨f, rfl⟩ : ∃ f, fuel = f + 1 := ⟨fuel - 1, by omega⟩
      simp only [HuddleWord.typed, List.cons_append, List.nil_append]
      rw [getoptGo_short _ _ _ _ _ _ h2, doShorts, h1]
      simp only [doShorts, Option.map_some]
      rw [ih f (by rw [List.length_append]; omega)]
      cases R <;> rfl
    | value c hc a =>
      obtain ⟨h1, h2⟩ := huddle_value hc
      simp only [HuddleWord.typed, List.length_append, List.length_cons, List.length_nil] at hl
      obtain ⟨f, rfl⟩ : ∃ f, fuel = f + 1 := ⟨fuel - 1, by omega⟩
      simp only [HuddleWord.typed, List.cons_append, List.nil_append]
      rw [getoptGo_short _ _ _ _ _ _ h2, doShorts, h1]
      simp only [takeValue, Option.map_some]
      rw [ih f (by rw [List.length_append]; omega)]
      cases R <;> rfl
    | glued c hc a ha =>
      obtain ⟨h1, h2⟩ := huddle_value hc
      simp only [HuddleWord.typed, List.length_append, List.length_cons, List.length_nil] at hl
      obtain ⟨f, rfl⟩ : ∃ f, fuel = f + 1 := ⟨fuel - 1, by omega⟩
      simp only [HuddleWord.typed, List.cons_append, List.nil_append]
      rw [getoptGo_short _ _ _ _ _ _ h2, doShorts, h1]
      cases a with
      | nil => exact absurd rfl ha
      | cons x a =>
        simp only [takeValue, Option.map_some]
        rw [ih f (by rw [List.length_append]; omega)]
        cases R <;> rfl
    | long a =>
      simp only [HuddleWord.typed, List.length_append, List.length_cons, List.length_nil] at hl
      obtain ⟨f, rfl⟩ : ∃ f, fuel = f + 1 := ⟨fuel - 1, by omega⟩
      simp only [HuddleWord.typed, List.cons_append, List.nil_append]
      have e : bytes "--inputdir" = 45 :: 45 :: bytes "inputdir" := by decide +kernel
      rw [getoptGo, if_neg (by decide +kernel), if_pos (by decide +kernel), show (bytes "--inputdir").drop 2 = bytes "inputdir" by decide +kernel,
        inputdir_long]
      simp only
      rw [ih f (by rw [List.length_append]; omega)]
      cases R <;> rfl
    | longEq a =>
      simp only [HuddleWord.typed, List.length_append, List.length_cons, List.length_nil] at hl
      obtain ⟨f, rfl⟩ : ∃ f, fuel = f + 1 := ⟨fuel - 1, by omega⟩
      simp only [HuddleWord.typed, List.cons_append, List.nil_append]
      have e : bytes "--inputdir=" ++ a = 45 :: 45 :: (bytes "inputdir=" ++ a) := by
        rw [show bytes "--inputdir=" = 45 :: 45 :: bytes "inputdir=" by decide +kernel]; rfl
      have ne : bytes "inputdir=" ++ a ≠ [] := by
        intro h
        have := (List.append_eq_nil_iff.mp h).1
        exact absurd this (by decide +kernel)
      rw [getoptGo, e, if_neg (by simpa using ne), if_pos (by simp), List.drop_succ_cons, List.drop_succ_cons, List.drop_zero, inputdir_longEq]
      simp only
      rw [ih f (by rw [List.length_append]; omega)]
      cases R <;> rfl

theorem lastTyped_cons (c : Nat) (w : HuddleWord) (ws : List HuddleWord) :
    lastTyped c (w :: ws) = (lastTyped c ws).or (w.valueOf c) := by
  unfold lastTyped
  cases h : w.valueOf c with
  | none => rw [List.filterMap_cons_none h, Option.or_none]
  | some v =>
    rw [List.filterMap_cons_some h]
    cases ws.filterMap (HuddleWord.valueOf c) with
    | nil => rfl
    | cons x l => rw [List.getLast?_cons_cons, List.getLast?_eq_some_getLast (by simp)]; rfl

/-- The settings after some options. -/
def settled (o : HuddleOpts) (ws : List HuddleWord) : HuddleOpts where
  inputdir := (lastTyped 105 ws).getD o.inputdir
  sns := ((lastTyped 115 ws).map splitComma).getD o.sns
  exclude := ((lastTyped 120 ws).map splitComma).getD o.exclude

theorem huddle_letters : bytes "-h" = [45, 104] ∧ bytes "-d" = [45, 100] ∧ bytes "-i" = [45, 105] ∧ bytes "-s" = [45, 115] ∧ bytes "-x" = [45, 120] := by
  decide +kernel

theorem long_not_short (c : Nat) : [45, c] ≠ bytes "--help" ∧ [45, c] ≠ bytes "--debug" ∧ [45, c] ≠ bytes "--inputdir" ∧
    [45, c] ≠ bytes "--serialnumbers" ∧ [45, c] ≠ bytes "--exclude_serialnumbers" := by
  have h2 : ∀ s : List Nat, s.length ≠ 2 → [45, c] ≠ s := fun s hs h => hs (by rw [← h]; rfl)
  exact ⟨h2 _ (by decide +kernel), h2 _ (by decide +kernel), h2 _ (by decide +kernel), h2 _ (by decide +kernel), h2 _ (by decide +kernel)⟩

theorem huddleApply_short (o : HuddleOpts) (c : Nat) (a : List Nat) (l : List (List Nat × List Nat)) :
    huddleApply o (([45, c], a) :: l) =
      if c = 104 then .help else if c = 105 then huddleApply { o with inputdir := a } l
      else if c = 115 then huddleApply { o with sns := splitComma a } l
      else if c = 120 then huddleApply { o with exclude := splitComma a } l
      else huddleApply o l := by
  obtain ⟨h1, h2, h3, h4, h5⟩ := long_not_short c
  obtain ⟨e1, e2, e3, e4, e5⟩ := huddle_letters
  rw [huddleApply, e1, e2, e3, e4, e5]
  simp only [h1, h2, h3, h4, h5, or_false, List.cons.injEq, and_true, true_and]
  by_cases c1 : c = 104
  · rw [if_pos c1, if_pos c1]
  · rw [if_neg c1, if_neg c1]
    by_cases c2 : c = 100
    · rw [if_pos c2, if_neg (by omega), if_neg (by omega), if_neg (by omega)]
    · rw [if_neg c2]

theorem huddleApply_long (o : HuddleOpts) (a : List Nat) (l : List (List Nat × List Nat)) :
    huddleApply o ((bytes "--inputdir", a) :: l) = huddleApply { o with inputdir := a } l := by
  rw [huddleApply, if_neg (by decide +kernel), if_neg (by decide +kernel), if_pos (by decide +kernel)]

theorem huddleApply_words : ∀ (ws : List HuddleWord) (o : HuddleOpts), (∀ w ∈ ws, w.isHelp = false) →
    huddleApply o (ws.map HuddleWord.meant) = .run (settled o ws)
  | [], _, _ => rfl
  | w :: ws, o, h => by
    have ih := fun o => huddleApply_words ws o fun x hx => h x (by simp [hx])
    have hw := h w (by simp)
    rw [List.map_cons]
    have step : ∀ o', (o'.inputdir = (w.valueOf 105).getD o.inputdir) → (o'.sns = ((w.valueOf 115).map splitComma).getD o.sns) →
        (o'.exclude = ((w.valueOf 120).map splitComma).getD o.exclude) → HuddleCall.run (settled o' ws) = .run (settled o (w :: ws)) := by
      intro o' h1 h2 h3
      unfold settled
      simp only [lastTyped_cons, h1, h2, h3]
      congr 2
      · cases lastTyped 105 ws <;> rfl
      · cases lastTyped 115 ws <;> rfl
      · cases lastTyped 120 ws <;> rfl
    have short : ∀ (c : Nat) (a : List Nat), c ≠ 104 → (∀ d, w.valueOf d = if c = d then some a else none) →
        huddleApply o (([45, c], a) :: ws.map HuddleWord.meant) = .run (settled o (w :: ws)) := by
      intro c a hc hv
      rw [huddleApply_short, if_neg hc]
      by_cases c1 : c = 105
      · rw [if_pos c1, ih]; exact step _ (by simp [hv, c1]) (by simp [hv, c1]) (by simp [hv, c1])
      · rw [if_neg c1]
        by_cases c2 : c = 115
        · rw [if_pos c2, ih]; exact step _ (by simp [hv, c2]) (by simp [hv, c2]) (by simp [hv, c2])
        · rw [if_neg c2]
          by_cases c3 : c = 120
          · rw [if_pos c3, ih]; exact step _ (by simp [hv, c3]) (by simp [hv, c3]) (by simp [hv, c3])
          · rw [if_neg c3, ih]; exact step _ (by simp [hv, c1]) (by simp [hv, c2]) (by simp [hv, c3])
    have val : ∀ c, c ∈ bytes "isxoflp" → c ≠ 104 := by
      intro c hc h
      subst h
      exact absurd hc (by decide +kernel)
    cases w with
    | flag c hc =>
      simp only [HuddleWord.isHelp, beq_eq_false_iff_ne] at hw
      simp only [HuddleWord.meant]
      have hc' : c ≠ 105 ∧ c ≠ 115 ∧ c ≠ 120 := by
        rw [show bytes "hdt" = [104, 100, 116] by decide +kernel] at hc
        simp only [List.mem_cons, List.not_mem_nil, or_false] at hc
        omega
      rw [huddleApply_short, if_neg hw, if_neg hc'.1, if_neg hc'.2.1, if_neg hc'.2.2, ih]
      exact step _ rfl rfl rfl
    | value c hc a => exact short c a (val c hc) fun d => rfl
    | glued c hc a ha => exact short c a (val c hc) fun d => rfl
    | long a =>
      simp only [HuddleWord.meant]
      rw [huddleApply_long, ih]
      exact step _ rfl rfl rfl
    | longEq a =>
      simp only [HuddleWord.meant]
      rw [huddleApply_long, ih]
      exact step _ rfl rfl rfl

/-- **C96, settings.** Whatever options are typed (none of them `-h`), in any order and number: the folder is the last one named, or the
current folder; the serial numbers and the excluded ones are the last lists typed, split at commas. What follows the first word that is not an option
is not read. -/
theorem C96_settings (ws : List HuddleWord) (hh : ∀ w ∈ ws, w.isHelp = false) (tail : List (List Nat))
    (ht : ∀ x ∈ tail.head?, x.head? ≠ some 45) :
    huddleMain (ws.flatMap HuddleWord.typed ++ tail) =
      .run { inputdir := (lastTyped 105 ws).getD (bytes "."), sns := ((lastTyped 115 ws).map splitComma).getD [],
             exclude := ((lastTyped 120 ws).map splitComma).getD [] } := by
  have hstop : ∀ fuel, tail.length ≤ fuel → getoptGo huddleShort huddleLong fuel tail = some [] := by
    intro fuel hf
    cases tail with
    | nil => cases fuel <;> rfl
    | cons x tail =>
      have hx := ht x rfl
      obtain ⟨f, rfl⟩ : ∃ f, fuel = f + 1 := ⟨fuel - 1, by simp only [List.length_cons] at hf; omega⟩
      have h1 : x.take 2 ≠ [45, 45] := by
        intro h2
        apply hx
        match x, h2 with
        | y :: t, h2 =>
          simp only [List.take_succ_cons, List.cons.injEq] at h2
          rw [h2.1]
          rfl
      rw [getoptGo, if_neg (fun h2 => h1 (by rw [h2]; rfl)), if_neg h1, if_neg (fun h2 => hx h2.1)]
  have := getopt_huddle hstop ws _ (Nat.le_refl _)
  unfold huddleMain getopt
  rw [this]
  simp only [Option.map_some, List.append_nil]
  exact huddleApply_words ws {} hh

theorem splitComma_ne_nil (s : List Nat) : splitComma s ≠ [] := by
  obtain ⟨f, fs, h, _⟩ := splitCommaGo_first s []
  unfold splitComma
  rw [h]
  simp

/-- **C96, the instruments tested.** If serial numbers are typed, those are tested that are not excluded; otherwise all that have a GPS log in the
folder, without the excluded ones. -/
theorem C96_tested (ws : List HuddleWord) (hh : ∀ w ∈ ws, w.isHelp = false) (folder : List Nat) (logs : List (List Nat × List Nat))
    (hl : ∀ l ∈ logs, l.1.length = 3 ∧ l.2.length = 3) :
    ∃ o, huddleMain (ws.flatMap HuddleWord.typed) = .run o ∧
      ∀ sn, sn ∈ huddleSNs o.sns (logs.map fun l => folder ++ l.1 ++ bytes "gps_" ++ l.2 ++ bytes ".txt") o.exclude ↔
        (sn ∈ ((lastTyped 115 ws).map splitComma).getD (logs.map Prod.fst)) ∧ ∀ x ∈ lastTyped 120 ws, sn ∉ splitComma x := by
  have h0 := C96_settings ws hh [] (by simp)
  rw [List.append_nil] at h0
  refine ⟨_, h0, ?_⟩
  intro sn
  have hex : (sn ∉ ((lastTyped 120 ws).map splitComma).getD []) ↔ ∀ x ∈ lastTyped 120 ws, sn ∉ splitComma x := by
    cases lastTyped 120 ws <;> simp
  have names : ∀ l ∈ logs, snOfGpsName (folder ++ l.1 ++ bytes "gps_" ++ l.2 ++ bytes ".txt") = l.1 := by
    intro l hs
    obtain ⟨h1, h2⟩ := hl l hs
    unfold snOfGpsName
    have e : folder ++ l.1 ++ bytes "gps_" ++ l.2 ++ bytes ".txt" = folder ++ (l.1 ++ (bytes "gps_" ++ l.2 ++ bytes ".txt")) := by
      simp only [List.append_assoc]
    have l1 : (bytes "gps_" ++ l.2 ++ bytes ".txt").length = 11 := by
      rw [List.length_append, List.length_append, h2]; decide +kernel
    rw [e]
    generalize bytes "gps_" ++ l.2 ++ bytes ".txt" = t at *
    have l2 : (folder ++ (l.1 ++ t)).length - 11 = (folder ++ l.1).length := by simp only [List.length_append]; omega
    have l3 : (folder ++ (l.1 ++ t)).length - 14 = folder.length := by simp only [List.length_append]; omega
    rw [l2, l3, ← List.append_assoc, List.take_left, List.drop_left]
  simp only
  unfold huddleSNs
  rw [List.mem_filter, decide_eq_true_iff, hex]
  refine and_congr_left fun _ => ?_
  cases hs : lastTyped 115 ws with
  | some v =>
    simp only [Option.map_some, Option.getD_some]
    rw [if_neg (by simpa using splitComma_ne_nil v)]
  | none =>
    simp only [Option.map_none, Option.getD_none, List.length_nil, if_true]
    rw [mem_snUnique, List.map_map, List.map_congr_left (f := snOfGpsName ∘ _) (g := Prod.fst) names]

/-- **C96, help.** With `-h` among the options there is no test. -/
theorem C96_help (ws : List HuddleWord) (hh : ∃ w ∈ ws, w.isHelp = true) : huddleMain (ws.flatMap HuddleWord.typed) = .help := by
  have key : ∀ (ws : List HuddleWord), (∃ w ∈ ws, w.isHelp = true) → ∀ o, huddleApply o (ws.map HuddleWord.meant) = .help := by
    intro ws
    induction ws with
    | nil => rintro ⟨w, hw, _⟩; simp at hw
    | cons w ws ih =>
      rintro ⟨x, hx, he⟩ o
      rw [List.map_cons]
      have later : w.isHelp = false → ∀ o, huddleApply o (ws.map HuddleWord.meant) = .help := by
        intro hw
        apply ih
        rcases List.mem_cons.mp hx with rfl | hx
        · rw [hw] at he; exact absurd he (by simp)
        · exact ⟨x, hx, he⟩
      have short : ∀ c a, (c ≠ 104 → w.isHelp = false) → huddleApply o (([45, c], a) :: ws.map HuddleWord.meant) = .help := by
        intro c a hw
        rw [huddleApply_short]
        by_cases hc : c = 104
        · rw [if_pos hc]
        · simp only [if_neg hc, later (hw hc), ite_self]
      cases w with
      | flag c hc => exact short c [] fun h => by simpa [HuddleWord.isHelp] using h
      | value c hc a => exact short c a fun _ => rfl
      | glued c hc a ha => exact short c a fun _ => rfl
      | long a => simp only [HuddleWord.meant]; rw [huddleApply_long]; exact later rfl _
      | longEq a => simp only [HuddleWord.meant]; rw [huddleApply_long]; exact later rfl _
  have := getopt_huddle (tail := []) (R := some []) (fun fuel _ => by cases fuel <;> rfl) ws _ (Nat.le_refl _)
  rw [List.append_nil] at this
  unfold huddleMain getopt
  rw [this]
  simp only [Option.map_some, List.append_nil]
  exact key ws hh {}

/-- **C96, violated: documented long options.** `--serialnumbers`, `--exclude_serialnumbers` and `--help` are in the help text, but give only the usage
message. -/
theorem C96_violated_long_forms (ws : List HuddleWord) (tail : List (List Nat)) :
    huddleMain (ws.flatMap HuddleWord.typed ++ bytes "--serialnumbers" :: tail) = .usage ∧
    huddleMain (ws.flatMap HuddleWord.typed ++ bytes "--exclude_serialnumbers" :: tail) = .usage ∧
    huddleMain (ws.flatMap HuddleWord.typed ++ bytes "--help" :: tail) = .usage := by
  have key : ∀ name : List Nat, name ≠ [45, 45] → name.take 2 = [45, 45] → doLongs huddleLong (name.drop 2) tail = none →
      huddleMain (ws.flatMap HuddleWord.typed ++ name :: tail) = .usage := by
    intro name h1 h2 h3
    have := getopt_huddle (tail := name :: tail) (R := none) (fun fuel hf => by
      obtain ⟨f, rfl⟩ : ∃ f, fuel = f + 1 := ⟨fuel - 1, by simp only [List.length_cons] at hf; omega⟩
      rw [getoptGo, if_neg h1, if_pos h2, h3]) ws _ (Nat.le_refl _)
    unfold huddleMain getopt
    rw [this]
    rfl
  have none_of : ∀ o : List Nat, longHasArgs (o.takeWhile fun c => c ≠ 61) huddleLong = none → doLongs huddleLong o tail = none := by
    intro o h
    unfold doLongs
    simp only [h]
  exact ⟨key _ (by decide +kernel) (by decide +kernel) (none_of _ (by decide +kernel)),
    key _ (by decide +kernel) (by decide +kernel) (none_of _ (by decide +kernel)),
    key _ (by decide +kernel) (by decide +kernel) (none_of _ (by decide +kernel))⟩

/-- **C96, violated: the long option that is accepted.** `--serialnumber` with a value is accepted, and all instruments are tested. -/
theorem C96_violated_serialnumber (v : List Nat) : huddleMain [bytes "--serialnumber", v] = .run { inputdir := bytes ".", sns := [], exclude := [] } := by
  have h1 : (bytes "serialnumber").takeWhile (fun c => c ≠ 61) = bytes "serialnumber" := by decide +kernel
  have h2 : 61 ∉ bytes "serialnumber" := by decide +kernel
  have h3 : longHasArgs (bytes "serialnumber") huddleLong = some (true, bytes "serialnumber") := by decide +kernel
  have h4 : doLongs huddleLong (bytes "serialnumber") [v] = some ((45 :: 45 :: bytes "serialnumber", v), []) := by
    unfold doLongs
    simp only [h1, if_neg h2, h3]
  have : getopt huddleShort huddleLong [bytes "--serialnumber", v] = some [(45 :: 45 :: bytes "serialnumber", v)] := by
    unfold getopt
    rw [List.length_cons, getoptGo, if_neg (by decide +kernel), if_pos (by decide +kernel),
      show (bytes "--serialnumber").drop 2 = bytes "serialnumber" by decide +kernel, h4]
    rfl
  unfold huddleMain
  rw [this]
  simp only [huddleApply]
  rw [if_neg (by decide +kernel), if_neg (by decide +kernel), if_neg (by decide +kernel), if_neg (by decide +kernel), if_neg (by decide +kernel)]

/-- **C96, violated: the default folder.** Without options the current folder is tested; the help text names ./raw/. -/
theorem C96_violated_default : huddleMain [] = .run { inputdir := bytes "." } := by decide +kernel

/-- `verify_huddle_test -i huddle -s061,065 -x 065 -d`. -/
example : huddleMain [bytes "-i", bytes "huddle", bytes "-s061,065", bytes "-x", bytes "065", bytes "-d"] =
    .run { inputdir := bytes "huddle", sns := [bytes "061", bytes "065"], exclude := [bytes "065"] } := by decide +kernel

/-- The same command line as options. -/
example : ([.value 105 (by decide +kernel) (bytes "huddle"), .glued 115 (by decide +kernel) (bytes "061,065") (by decide +kernel),
      .value 120 (by decide +kernel) (bytes "065"), .flag 100 (by decide +kernel)] : List HuddleWord).flatMap HuddleWord.typed =
    [bytes "-i", bytes "huddle", bytes "-s061,065", bytes "-x", bytes "065", bytes "-d"] := by decide +kernel

/-- `verify_huddle_test --inputdir=huddle 061`: the serial number is not read. -/
example : huddleMain [bytes "--inputdir=huddle", bytes "061"] = .run { inputdir := bytes "huddle" } := by decide +kernel

end Gemlog
