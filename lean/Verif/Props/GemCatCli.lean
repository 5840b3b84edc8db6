import Verif.Props.GemCatDisk
import Verif.Props.Single

/-!
# C99: gem_cat, from the command line to the files
-/

namespace Gemlog

/-- `gem_cat` has the option `-h`, and `-i`, `-o`, `-e` with a value, typed `-i raw` or `-iraw`. -/
def Word.ValidCat : Word → Prop
  | .flag c => c = 104
  | .value c _ => c = 105 ∨ c = 111 ∨ c = 101
  | .glued c a => (c = 105 ∨ c = 111 ∨ c = 101) ∧ a ≠ []

theorem cat_value {c : Nat} (h : c = 105 ∨ c = 111 ∨ c = 101) : shortHasArg c catShort = some true ∧ c ≠ 45 := by
  rcases h with rfl | rfl | rfl <;> decide +kernel

theorem cat_flag : shortHasArg 104 catShort = some false := by decide +kernel

theorem getopt_cat {tail : List (List Nat)} {R : Option (List (List Nat × List Nat))}
    (hstop : ∀ fuel, tail.length ≤ fuel → getoptGo catShort [] fuel tail = R) :
    ∀ (ws : List Word) (fuel : Nat), (∀ w ∈ ws, w.ValidCat) → (ws.flatMap Word.typed ++ tail).length ≤ fuel →
      getoptGo catShort [] fuel (ws.flatMap Word.typed ++ tail) = R.map fun r => ws.map Word.meant ++ r := by
  intro ws
  induction ws with
  | nil =>
    intro fuel _ hl
    refine (hstop fuel (by simpa using hl)).trans ?_
    cases R <;> rfl
  | cons w ws ih =>
    intro fuel hv hl
    have hw := hv w (by simp)
    have hrest := fun f hf => ih f (fun x hx => hv x (by simp [hx])) hf
    rw [List.flatMap_cons, List.append_assoc] at hl ⊢
    cases w with
    | flag c =>
      have hc : c = 104 := hw
      subst hc
      simp only [Word.typed, List.length_append, List.length_cons, List.length_nil] at hl
      obtain ⟨f, rfl⟩ : ∃ f, fuel = f + 1 := ⟨fuel - 1, by omega⟩
      simp only [Word.typed, List.cons_append, List.nil_append]
      rw [getoptGo_short _ _ _ _ _ _ (by decide), doShorts, cat_flag]
      simp only [doShorts, Option.map_some]
      rw [hrest f (by rw [List.length_append]; omega)]
      cases R <;> rfl
    | value c a =>
      obtain ⟨h1, h2⟩ := cat_value hw
      simp only [Word.typed, List.length_append, List.length_cons, List.length_nil] at hl
      obtain ⟨f, rfl⟩ : ∃ f, fuel = f + 1 := ⟨fuel - 1, by omega⟩
      simp only [Word.typed, List.cons_append, List.nil_append]
      rw [getoptGo_short _ _ _ _ _ _ h2, doShorts, h1]
      simp only [takeValue, Option.map_some]
      rw [hrest f (by rw [List.length_append]; omega)]
      cases R <;> rfl
    | glued c a =>
      obtain ⟨h0, ha⟩ := hw
      obtain ⟨h1, h2⟩ := cat_value h0
      simp only [Word.typed, List.length_append, List.length_cons, List.length_nil] at hl
      obtain ⟨f, rfl⟩ : ∃ f, fuel = f + 1 := ⟨fuel - 1, by omega⟩
      simp only [Word.typed, List.cons_append, List.nil_append]
      rw [getoptGo_short _ _ _ _ _ _ h2, doShorts, h1]
      cases a with
      | nil => exact absurd rfl ha
      | cons x a =>
        simp only [takeValue, Option.map_some]
        rw [hrest f (by rw [List.length_append]; omega)]
        cases R <;> rfl

theorem getoptGo_stop (short : List Nat) (long : List (List Nat)) {tail : List (List Nat)} (ht : ∀ x ∈ tail.head?, x.head? ≠ some 45)
    (fuel : Nat) (hf : tail.length ≤ fuel) : getoptGo short long fuel tail = some [] := by
  cases tail with
  | nil => cases fuel <;> rfl
  | cons x tail =>
    have hx := ht x rfl
    obtain ⟨f, rfl⟩ : ∃ f, fuel = f + 1 := ⟨fuel - 1, by simp only [List.length_cons] at hf; omega⟩
    have h1 : x.take 2 ≠ [45, 45] := by
      intro h2
      apply hx
      match x, h2 with
      | y :: t, h2 =>
        simp only [List.take_succ_cons, List.cons.injEq] at h2
        rw [h2.1]
        rfl
    rw [getoptGo, if_neg (fun h2 => h1 (by rw [h2]; rfl)), if_neg h1, if_neg (fun h2 => hx h2.1)]

theorem catApply_short (o : CatOpts) (c : Nat) (a : List Nat) (l : List (List Nat × List Nat)) :
    catApply o (([45, c], a) :: l) =
      if c = 104 then none else if c = 105 then catApply { o with inputdir := a } l
      else if c = 111 then catApply { o with outputdir := a } l
      else if c = 101 then catApply { o with ext := a } l
      else catApply o l := by
  have e1 : bytes "-h" = [45, 104] ∧ bytes "-i" = [45, 105] ∧ bytes "-o" = [45, 111] ∧ bytes "-e" = [45, 101] := by decide +kernel
  have n : ∀ s : List Nat, s.length ≠ 2 → [45, c] ≠ s := by rintro s hs rfl; exact hs rfl
  have n1 := n (bytes "--help") (by decide +kernel)
  have n2 := n (bytes "--inputdir") (by decide +kernel)
  have n3 := n (bytes "--outputdir") (by decide +kernel)
  have n4 := n (bytes "--ext") (by decide +kernel)
  rw [catApply, e1.1, e1.2.1, e1.2.2.1, e1.2.2.2]
  simp only [n1, n2, n3, n4, or_false, List.cons.injEq, and_true, true_and]

/-- The settings that follow from what is typed: for each the last value, or `o`. -/
def catSettled (o : CatOpts) (ws : List Word) : CatOpts :=
  ⟨(typedValue ws 105).getD o.inputdir, (typedValue ws 111).getD o.outputdir, (typedValue ws 101).getD o.ext⟩

theorem catApply_typed : ∀ (ws : List Word), (∀ w ∈ ws, w.ValidCat) → ∀ o : CatOpts,
    ((∃ w ∈ ws, w = Word.flag 104) → catApply o (ws.map Word.meant) = none) ∧
    ((∀ w ∈ ws, w ≠ Word.flag 104) → catApply o (ws.map Word.meant) = some (catSettled o ws))
  | [], _, _ => ⟨by simp, fun _ => rfl⟩
  | w :: ws, hv, o => by
    have ih := fun o => catApply_typed ws (fun x hx => hv x (by simp [hx])) o
    have hw := hv w (by simp)
    rw [List.map_cons]
    have main : ∀ c a, (c = 105 ∨ c = 111 ∨ c = 101) → w ≠ Word.flag 104 → (∀ e, w.valueFor e = if c = e then some a else none) → w.meant = ([45, c], a) →
        ((∃ x ∈ w :: ws, x = Word.flag 104) → catApply o (w.meant :: ws.map Word.meant) = none) ∧
        ((∀ x ∈ w :: ws, x ≠ Word.flag 104) → catApply o (w.meant :: ws.map Word.meant) = some (catSettled o (w :: ws))) := by
      intro c a hc hn hval hm
      rw [hm, catApply_short, if_neg (by omega)]
      constructor
      · rintro ⟨x, hx, he⟩
        have hin : ∃ x ∈ ws, x = Word.flag 104 := by
          rcases List.mem_cons.mp hx with rfl | hx
          · exact absurd he hn
          · exact ⟨x, hx, he⟩
        simp only [(ih _).1 hin, ite_self]
      · intro h
        have hin : ∀ x ∈ ws, x ≠ Word.flag 104 := fun x hx => h x (by simp [hx])
        simp only [(ih _).2 hin]
        unfold catSettled
        simp only [typedValue_cons, hval]
        rcases hc with rfl | rfl | rfl <;> simp <;>
          cases typedValue ws 105 <;> cases typedValue ws 111 <;> cases typedValue ws 101 <;> simp
    cases w with
    | flag c =>
      have hc : c = 104 := hw
      subst hc
      refine ⟨fun _ => ?_, fun h => absurd rfl (h _ (by simp))⟩
      simp only [Word.meant]
      rw [catApply_short, if_pos rfl]
    | value c a => exact main c a hw (by simp) (fun e => rfl) rfl
    | glued c a => exact main c a hw.1 (by simp) (fun e => rfl) rfl

theorem cat_typed (ws : List Word) (hv : ∀ w ∈ ws, w.ValidCat) (tail : List (List Nat)) (ht : ∀ x ∈ tail.head?, x.head? ≠ some 45) :
    getopt catShort [] (ws.flatMap Word.typed ++ tail) = some (ws.map Word.meant) := by
  unfold getopt
  rw [getopt_cat (getoptGo_stop catShort [] ht) ws _ hv (Nat.le_refl _)]
  simp

/-- **C99, merging.** Whatever options are typed (not `-h`), in any order and number: the input folder is the last one given, or `raw`; the output folder is the last
one given, or `raw_merged`; likewise the extension, or none. Words after the first that is not an option are not read. If the folders differ, the output folder is there or
can be made, and the raw files can be merged, the program says so, the output folder holds the merged files, and no other file has changed. -/
theorem C99_merges (env : CatEnv) (w : CatWorld) (d : Folders) (ws : List Word) (hv : ∀ x ∈ ws, x.ValidCat) (hh : ∀ x ∈ ws, x ≠ Word.flag 104)
    (tail : List (List Nat)) (ht : ∀ x ∈ tail.head?, x.head? ≠ some 45)
    (inD outD ext : List Nat) (hi : inD = (typedValue ws 105).getD (bytes "raw")) (ho : outD = (typedValue ws 111).getD (bytes "raw_merged"))
    (he : ext = (typedValue ws 101).getD []) (hne : inD ≠ outD)
    (names : List (List Nat)) (hl : w.list inD = some names) (hf : w.folder outD = true)
    (outs : List (List Nat × List Nat)) (hm : gemCat env false ext (d.raw inD names) = .ok outs) :
    ∃ ops, gemCatMain env w d (ws.flatMap Word.typed ++ tail) = (.merged, ops) ∧
      (∀ o ∈ outs, applyOps d ops (outD, o.1) = some o.2) ∧ ∀ q, (∀ o ∈ outs, q ≠ (outD, o.1)) → applyOps d ops q = d q := by
  have hn : names ≠ [] := by
    rintro rfl
    simp [gemCat, Folders.raw, sortRaw, gemCatFiles] at hm
  obtain ⟨_, r⟩ := C98_result env inD outD ext names hne d
  obtain ⟨r1, r2, r3⟩ := r outs hm
  refine ⟨_, ?_, r2, r3⟩
  have hs : catSettled {} ws = ⟨inD, outD, ext⟩ := by rw [hi, ho, he]; rfl
  unfold gemCatMain
  rw [cat_typed ws hv tail ht]
  simp only [(catApply_typed ws hv {}).2 hh, hs, hl, if_neg hn, hf, Bool.true_eq_false, if_false, r1]

/-- **C99, failure.** If the files cannot be merged, the program says so, and only files in the output folder have changed. -/
theorem C99_fails (env : CatEnv) (w : CatWorld) (d : Folders) (ws : List Word) (hv : ∀ x ∈ ws, x.ValidCat) (hh : ∀ x ∈ ws, x ≠ Word.flag 104)
    (inD outD ext : List Nat) (hi : inD = (typedValue ws 105).getD (bytes "raw")) (ho : outD = (typedValue ws 111).getD (bytes "raw_merged"))
    (he : ext = (typedValue ws 101).getD []) (hne : inD ≠ outD)
    (names : List (List Nat)) (hl : w.list inD = some names) (hn : names ≠ [])
    (hm : w.folder outD = false ∨ ∃ x, gemCat env false ext (d.raw inD names) = .error x) :
    ∃ ops, gemCatMain env w d (ws.flatMap Word.typed) = (.failed, ops) ∧ ∀ q, q.1 ≠ outD → applyOps d ops q = d q := by
  have hs : catSettled {} ws = ⟨inD, outD, ext⟩ := by rw [hi, ho, he]; rfl
  have ht := cat_typed ws hv [] (by simp)
  rw [List.append_nil] at ht
  unfold gemCatMain
  rw [ht]
  simp only [(catApply_typed ws hv {}).2 hh, hs, hl, if_neg hn]
  cases hf : w.folder outD with
  | false => exact ⟨[], by simp, fun q _ => rfl⟩
  | true =>
    rcases hm with h | ⟨x, hx⟩
    · rw [hf] at h; exact absurd h (by simp)
    · have := (C98_result env inD outD ext names hne d).1 x hx
      refine ⟨(gemCatRun env false inD outD ext names d).1, ?_, fun q hq => (C98_elsewhere env false inD outD ext names d q hq).1⟩
      simp only [Bool.true_eq_false, if_false, this]

/-- **C99, nothing to do.** With `-h` among the options, with an input folder that cannot be listed and with an empty one no file changes, and the program says which
it was. -/
theorem C99_nothing (env : CatEnv) (w : CatWorld) (d : Folders) (ws : List Word) (hv : ∀ x ∈ ws, x.ValidCat) (tail : List (List Nat))
    (ht : ∀ x ∈ tail.head?, x.head? ≠ some 45) :
    ((∃ x ∈ ws, x = Word.flag 104) → gemCatMain env w d (ws.flatMap Word.typed ++ tail) = (.help, [])) ∧
    ((∀ x ∈ ws, x ≠ Word.flag 104) → w.list ((typedValue ws 105).getD (bytes "raw")) = none →
      gemCatMain env w d (ws.flatMap Word.typed ++ tail) = (.noFolder, [])) ∧
    ((∀ x ∈ ws, x ≠ Word.flag 104) → w.list ((typedValue ws 105).getD (bytes "raw")) = some [] →
      gemCatMain env w d (ws.flatMap Word.typed ++ tail) = (.noFiles, [])) := by
  unfold gemCatMain
  rw [cat_typed ws hv tail ht]
  refine ⟨fun h => ?_, fun h hl => ?_, fun h hl => ?_⟩
  · simp only [(catApply_typed ws hv {}).1 h]
  · have : w.list (catSettled {} ws).inputdir = none := hl
    simp only [(catApply_typed ws hv {}).2 h, this]
  · have : w.list (catSettled {} ws).inputdir = some [] := hl
    simp only [(catApply_typed ws hv {}).2 h, this, if_true]

/-- **C99, usage.** An unknown option, or an option without the value it needs, is refused with status 2, and nothing is done. -/
theorem C99_usage (env : CatEnv) (w : CatWorld) (d : Folders) (ws : List Word) (hv : ∀ x ∈ ws, x.ValidCat) :
    (∀ c r tail, c ≠ 45 → c ∉ bytes "hioe" → gemCatMain env w d (ws.flatMap Word.typed ++ (45 :: c :: r) :: tail) = (.usage, [])) ∧
    ∀ c, (c = 105 ∨ c = 111 ∨ c = 101) → gemCatMain env w d (ws.flatMap Word.typed ++ [[45, c]]) = (.usage, []) := by
  have key : ∀ tail, (∀ fuel, tail.length ≤ fuel → getoptGo catShort [] fuel tail = none) →
      gemCatMain env w d (ws.flatMap Word.typed ++ tail) = (.usage, []) := by
    intro tail hstop
    unfold gemCatMain getopt
    rw [getopt_cat hstop ws _ hv (Nat.le_refl _)]
    rfl
  refine ⟨?_, ?_⟩
  · intro c r tail hc hn
    apply key
    intro fuel hf
    obtain ⟨f, rfl⟩ : ∃ f, fuel = f + 1 := ⟨fuel - 1, by simp only [List.length_cons] at hf; omega⟩
    have h1 : shortHasArg c catShort = none := by
      rw [show bytes "hioe" = [104, 105, 111, 101] by decide +kernel] at hn
      simp only [List.mem_cons, List.not_mem_nil, or_false, not_or] at hn
      rw [show catShort = [104, 105, 58, 111, 58, 101, 58] by decide +kernel]
      simp [shortHasArg, hn]
    rw [getoptGo_short _ _ _ _ _ _ hc, doShorts, h1]
  · intro c hc
    apply key
    intro fuel hf
    obtain ⟨f, rfl⟩ : ∃ f, fuel = f + 1 := ⟨fuel - 1, by simp only [List.length_cons] at hf; omega⟩
    obtain ⟨h1, h2⟩ := cat_value hc
    rw [getoptGo_short _ _ _ _ _ _ h2, doShorts, h1]
    rfl

/-- **C99, status of refused calls.** A call with an unknown option, or with an option that lacks its value, ends with status 2. No other call does: one that was
understood ends with status 0. -/
theorem C99_status (env : CatEnv) (w : CatWorld) (d : Folders) (ws : List Word) (hv : ∀ x ∈ ws, x.ValidCat) :
    (∀ c r tail, c ≠ 45 → c ∉ bytes "hioe" → (gemCatMain env w d (ws.flatMap Word.typed ++ (45 :: c :: r) :: tail)).1.status = 2) ∧
    (∀ c, (c = 105 ∨ c = 111 ∨ c = 101) → (gemCatMain env w d (ws.flatMap Word.typed ++ [[45, c]])).1.status = 2) ∧
    ∀ rest : List (List Nat), (∀ x ∈ rest.head?, x.head? ≠ some 45) → (gemCatMain env w d (ws.flatMap Word.typed ++ rest)).1.status = 0 := by
  obtain ⟨h1, h2⟩ := C99_usage env w d ws hv
  refine ⟨fun c r tail hc hn => by rw [h1 c r tail hc hn]; rfl, fun c hc => by rw [h2 c hc]; rfl, ?_⟩
  intro rest hrest
  unfold gemCatMain
  rw [cat_typed ws hv rest hrest]
  dsimp only
  cases catApply {} (ws.map Word.meant) with
  | none => rfl
  | some o =>
    dsimp only
    cases w.list o.inputdir with
    | none => rfl
    | some names =>
      dsimp only
      split
      · rfl
      · split
        · rfl
        · cases (gemCatRun env false o.inputdir o.outputdir o.ext names d).2 <;> rfl

/-- **C99, violated (long options).** The program has code for `--inputdir`, `--outputdir`, `--ext` and `--help`, but every call with such a word is refused, and
nothing is merged. -/
theorem C99_violated_long (env : CatEnv) (w : CatWorld) (d : Folders) (ws : List Word) (hv : ∀ x ∈ ws, x.ValidCat) (name : List Nat) (hn : name ≠ [])
    (tail : List (List Nat)) : gemCatMain env w d (ws.flatMap Word.typed ++ (45 :: 45 :: name) :: tail) = (.usage, []) := by
  unfold gemCatMain getopt
  rw [getopt_cat (R := none) ?_ ws _ hv (Nat.le_refl _)]
  · rfl
  · intro fuel hf
    obtain ⟨f, rfl⟩ : ∃ f, fuel = f + 1 := ⟨fuel - 1, by simp only [List.length_cons] at hf; omega⟩
    rw [getoptGo, if_neg (by simp [hn]), if_pos (by simp)]
    rfl

/-- **C99, violated (status).** A script that merges cannot see that it failed: a missing input folder, an empty input folder and a failed merge end with status 0, as
success does. -/
theorem C99_violated_status (env : CatEnv) (w : CatWorld) (d : Folders) (ws : List Word) (hv : ∀ x ∈ ws, x.ValidCat) (hh : ∀ x ∈ ws, x ≠ Word.flag 104)
    (inD outD ext : List Nat) (hi : inD = (typedValue ws 105).getD (bytes "raw")) (ho : outD = (typedValue ws 111).getD (bytes "raw_merged"))
    (he : ext = (typedValue ws 101).getD []) (hne : inD ≠ outD)
    (h : w.list inD = none ∨ w.list inD = some [] ∨ ∃ names, names ≠ [] ∧ w.list inD = some names ∧
      (w.folder outD = false ∨ ∃ x, gemCat env false ext (d.raw inD names) = .error x)) :
    (gemCatMain env w d (ws.flatMap Word.typed)).1 ≠ .merged ∧ (gemCatMain env w d (ws.flatMap Word.typed)).1.status = CatEnd.merged.status := by
  obtain ⟨_, n2, n3⟩ := C99_nothing env w d ws hv [] (by simp)
  rw [List.append_nil] at n2 n3
  rcases h with h | h | ⟨names, hn, hl, hm⟩
  · rw [n2 hh (hi ▸ h)]; exact ⟨by simp, rfl⟩
  · rw [n3 hh (hi ▸ h)]; exact ⟨by simp, rfl⟩
  · obtain ⟨ops, h1, _⟩ := C99_fails env w d ws hv hh inD outD ext hi ho he hne names hl hn hm
    rw [h1]; exact ⟨by simp, rfl⟩

/-- Two raw files in the folder `raw`; every folder can be made. -/
def catWorld : CatWorld := ⟨fun f => if f = bytes "raw" then some [bytes "FILE0001.077", bytes "FILE0002.077"] else none, fun _ => true⟩

/-- `gem_cat -oout -e 077 more words` merges the two files into `out`; `gem_cat -i nowhere` finds nothing; `gem_cat -e 078` fails, with status 0. -/
example : (∃ ops, gemCatMain demoCatEnv catWorld twoRaw [bytes "-oout", bytes "-e", bytes "077", bytes "more", bytes "words"] = (.merged, ops) ∧
      applyOps twoRaw ops (bytes "out", bytes "FILE0001.077") = some fileC) ∧
    gemCatMain demoCatEnv catWorld twoRaw [bytes "-i", bytes "nowhere"] = (.noFolder, []) ∧
    (gemCatMain demoCatEnv catWorld twoRaw [bytes "-e", bytes "078"]).1.status = 0 := by
  refine ⟨?_, ?_, ?_⟩
  · obtain ⟨ops, h1, h2, _⟩ := C99_merges demoCatEnv catWorld twoRaw [.glued 111 (bytes "out"), .value 101 (bytes "077")]
      (by simp [Word.ValidCat]; decide +kernel) (by simp) [bytes "more", bytes "words"] (by decide +kernel) (bytes "raw") (bytes "out") (bytes "077")
      (by decide +kernel) (by decide +kernel) (by decide +kernel) (by decide +kernel) [bytes "FILE0001.077", bytes "FILE0002.077"] (by decide +kernel) rfl
      [(bytes "FILE0000.077", fileA.text), (bytes "FILE0001.077", fileC)] (by decide +kernel)
    exact ⟨ops, h1, h2 (bytes "FILE0001.077", fileC) (by simp)⟩
  · exact (C99_nothing demoCatEnv catWorld twoRaw [.value 105 (bytes "nowhere")] (by simp [Word.ValidCat]) [] (by simp)).2.1 (by simp) (by decide +kernel)
  · exact (C99_violated_status demoCatEnv catWorld twoRaw [.value 101 (bytes "078")] (by simp [Word.ValidCat]) (by simp) (bytes "raw") (bytes "raw_merged") (bytes "078")
      (by decide +kernel) (by decide +kernel) (by decide +kernel) (by decide +kernel)
      (.inr (.inr ⟨[bytes "FILE0001.077", bytes "FILE0002.077"], by simp, by decide +kernel, .inr ⟨.other, rfl⟩⟩))).2

/-- `gem_cat -x` ends with status 2, `gem_cat -h` and `gem_cat -e 077` with status 0. -/
example : (gemCatMain demoCatEnv catWorld twoRaw [bytes "-x"]).1.status = 2 ∧ (gemCatMain demoCatEnv catWorld twoRaw [bytes "-h"]).1.status = 0 ∧
    (gemCatMain demoCatEnv catWorld twoRaw [bytes "-e", bytes "077"]).1.status = 0 :=
  ⟨(C99_status demoCatEnv catWorld twoRaw [] (by simp)).1 120 [] [] (by decide) (by decide +kernel),
   (C99_status demoCatEnv catWorld twoRaw [.flag 104] (by simp [Word.ValidCat])).2.2 [] (by simp),
   (C99_status demoCatEnv catWorld twoRaw [.value 101 (bytes "077")] (by simp [Word.ValidCat])).2.2 [] (by simp)⟩

/-- `gem_cat -x`, `gem_cat -i` and `gem_cat --inputdir raw` are refused. -/
example : gemCatMain demoCatEnv catWorld twoRaw [bytes "-x"] = (.usage, []) ∧ gemCatMain demoCatEnv catWorld twoRaw [bytes "-i"] = (.usage, []) ∧
    gemCatMain demoCatEnv catWorld twoRaw [bytes "--inputdir", bytes "raw"] = (.usage, []) :=
  ⟨(C99_usage demoCatEnv catWorld twoRaw [] (by simp)).1 120 [] [] (by decide) (by decide +kernel),
   (C99_usage demoCatEnv catWorld twoRaw [] (by simp)).2 105 (.inl rfl),
   C99_violated_long demoCatEnv catWorld twoRaw [] (by simp) (bytes "inputdir") (by decide +kernel) [bytes "raw"]⟩

end Gemlog
