import Verif.Props.GemCat
import Verif.Props.Select

/-!
# C43, C44, C57, C58: examples, and merging a folder
-/

namespace Gemlog

/-! ## Examples -/

def dec (i : Nat) : Dec := ⟨false, i, [], by simp⟩

def demoCatEnv : CatEnv := ⟨true, [], [], fun _ => .error .corrupt, fun _ => .error .corrupt, fun _ => some (bytes "077")⟩

def demoG : List Nat := bytes "G,17,70,2020,6,20,5,21,22,43,-116"
def demoM : List Nat := bytes "M,15,2,3,4,5,6,7,8,9,10,11,12"

/-- A file with a fix; pressures 100, 97, 99. -/
def fileA : RawText := ⟨"0.9", [bytes "#head"], dec 10, 100, [.other demoM, .letters 102 106, .other demoG, .sample (dec 30) 2]⟩

/-- A file without; pressures 105, 104. -/
def fileB : RawText := ⟨"1.10", [], dec 40, 105, [.letters 102 108, .other demoM]⟩

theorem fileA_valid : fileA.Valid :=
  ⟨by decide +kernel, by decide +kernel, by
    intro l hl
    simp only [fileA, List.mem_cons, List.not_mem_nil, or_false] at hl
    rcases hl with rfl | rfl | rfl | rfl
    · exact ⟨by decide +kernel, by decide +kernel, by decide +kernel⟩
    · exact ⟨by decide, by decide⟩
    · exact ⟨by decide +kernel, by decide +kernel, by decide +kernel⟩
    · show (lineD (dec 30) 2).length ≤ 255
      decide +kernel, by decide +kernel, ⟨demoM, by simp [fileA], by decide +kernel⟩⟩

theorem fileB_valid : fileB.Valid :=
  ⟨by decide +kernel, by decide +kernel, by
    intro l hl
    simp only [fileB, List.mem_cons, List.not_mem_nil, or_false] at hl
    rcases hl with rfl | rfl
    · exact ⟨by decide, by decide⟩
    · exact ⟨by decide +kernel, by decide +kernel, by decide +kernel⟩, by decide +kernel,
    ⟨demoM, by simp [fileB], by decide +kernel⟩⟩

/-- Five files; the fourth starts a new output. -/
example : gemCatFiles demoCatEnv false [fileB.text, fileA.text, fileB.text, fileA.text, fileA.text] =
    .ok [(bytes "FILE0000.077", bytes "#GemCSV0.9\n#head\nD10,100\nM,15,2,3,4,5,6,7,8,9,10,11,12\nfj\nG,17,70,2020,6,20,5,21,22,43,-116\nD30,2\n" ++
        bytes "D40,6\nfl\nM,15,2,3,4,5,6,7,8,9,10,11,12\n" ++
        bytes "D10,-4\nM,15,2,3,4,5,6,7,8,9,10,11,12\nfj\nG,17,70,2020,6,20,5,21,22,43,-116\nD30,2\n"),
      (bytes "FILE0001.077", fileA.text)] := by decide +kernel

/-- The hypotheses of `C44_merged_pressures_partial` and `C44_cat_all_partial` hold for five files. -/
example : (∀ f ∈ [fileB, fileA, fileB, fileA, fileA], f.Valid ∧ f.version ∈ ["0.85C", "0.9", "1.10"]) ∧
    ([fileB, fileA, fileB, fileA, fileA].map fun f => f.head.length + f.rest.length + 2).sum ≤ 65520000 ∧
    demoCatEnv.readSN fileB.text = some (bytes "077") := by
  refine ⟨?_, by decide, rfl⟩
  intro f hf
  simp only [List.mem_cons, List.not_mem_nil, or_false] at hf
  rcases hf with rfl | rfl | rfl | rfl | rfl
  all_goals first | exact ⟨fileA_valid, by decide⟩ | exact ⟨fileB_valid, by decide⟩

example : [fileA, fileB].flatMap RawText.pressures = [100, 97, 99, 105, 104] := by decide +kernel

/-- The hypotheses of C43 hold for them. -/
example : NoBlankLine fileA.text ∧ NoBlankLine fileB.text ∧ HasFix fileA.text := by
  refine ⟨?_, ?_, .inr ⟨bytes "#GemCSV0.9\n#head\nD10,100\nM,15,2,3,4,5,6,7,8,9,10,11,12\nfj",
    bytes ",17,70,2020,6,20,5,21,22,43,-116\nD30,2\n", by decide +kernel⟩⟩
  · unfold NoBlankLine; decide +kernel
  · unfold NoBlankLine; decide +kernel

/-- The pressures read from a content. -/
def readPressures (env : CatEnv) (content : List Nat) (version : String) : Option (List (Option Rat)) :=
  match env.read content version with
  | .ok d => some (d.data.map Prod.snd)
  | .error _ => none

/-- **C44 is violated** by a file cut off at the end of its last line, as by a power failure: both files can be read, but the
last sample of the first and the first one of the second are glued together in the merged file, one sample is missing, and the
others have wrong pressures. -/
theorem C44_violated_truncated :
    readPressures demoCatEnv fileA.text.dropLast "0.9" = some [some 100, some 97, some 99] ∧
    readPressures demoCatEnv fileB.text "1.10" = some [some 105, some 104] ∧
    ∃ out, gemCatFiles demoCatEnv true [fileA.text.dropLast, fileB.text] = .ok [(bytes "FILE9999.077", out)] ∧
      readPressures demoCatEnv out "0.9" = some [some 100, some 97, some 99, some 98] :=
  ⟨by decide +kernel, by decide +kernel, fileA.text.dropLast ++ bytes "D40,6\nfl\nM,15,2,3,4,5,6,7,8,9,10,11,12\n", by decide +kernel, by decide +kernel⟩

/-! ## C58 -/

theorem MergedFrom.kept {g : List (List Nat)} {c : List Nat} (h : MergedFrom g c) :
    ∀ f ∈ g, f <:+: c ∨ ∃ pre s post, f = pre ++ s ++ post ∧ EndsLine pre ∧ pre.head? ≠ some 68 ∧
      (¬ ∃ a b, pre = a ++ 10 :: 68 :: b) ∧ s.head? = some 68 ∧ (∀ b ∈ s.dropLast, b ≠ 10) ∧
      (s.getLast? = some 10 ∨ post = []) ∧ post <:+: c := by
  induction h with
  | one f =>
    intro x hx
    simp only [List.mem_singleton] at hx
    exact .inl (hx ▸ List.infix_refl _)
  | @add g c f t h1 h2 ih =>
    intro x hx
    rcases List.mem_append.mp hx with hx | hx
    · rcases ih x hx with h | ⟨pre, s, post, a1, a2, a3, a4, a5, a6, a7, a8⟩
      · exact .inl (h.trans (List.infix_append' [] c t))
      · exact .inr ⟨pre, s, post, a1, a2, a3, a4, a5, a6, a7, a8.trans (List.infix_append' [] c t)⟩
    · simp only [List.mem_singleton] at hx
      subst hx
      obtain ⟨pre, s, s', post, a1, a2, a3, a4, a5, a6, a7, a8, _⟩ := h2
      refine .inr ⟨pre, s, post, a1, a2, a3, a4, a5, a6, a7, c ++ s', [], ?_⟩
      rw [a8]; simp

/-- **C58 (missing: the lines before the first sample of an appended file, see `C58_violated`).** From the first file with a fix
on, every file is in one of the outputs, completely, or from the line behind its first sample on. -/
theorem C58_rest_kept_partial (env : CatEnv) (files : List (List Nat)) (outs : List (List Nat × List Nat))
    (hb : ∀ f ∈ files, NoBlankLine f) (h : gemCatFiles env false files = .ok outs)
    (x : List (List Nat)) (f : List Nat) (y : List (List Nat)) (hf : files = x ++ f :: y)
    (hfix : HasFix f ∨ ∃ e ∈ x, HasFix e) :
    ∃ o ∈ outs, f <:+: o.2 ∨ ∃ pre s post, f = pre ++ s ++ post ∧ EndsLine pre ∧ pre.head? ≠ some 68 ∧
      (¬ ∃ a b, pre = a ++ 10 :: 68 :: b) ∧ s.head? = some 68 ∧ (∀ b ∈ s.dropLast, b ≠ 10) ∧
      (s.getLast? = some 10 ∨ post = []) ∧ post <:+: o.2 := by
  obtain ⟨_, be, af, gr, _, h2, h3, h4, h5, h6, h7⟩ := C43_groups env files outs hb h
  have hmem : f ∈ af := by
    have e := hf.symm.trans h2
    rw [List.append_eq_append_iff] at e
    rcases e with ⟨u, hu, hu2⟩ | ⟨u, hu, hu2⟩
    · rcases hfix with hfix | ⟨w, hw, hfix⟩
      · cases u with
        | nil => rw [List.nil_append] at hu2; rw [← hu2]; simp
        | cons a u =>
          simp only [List.cons_append, List.cons.injEq] at hu2
          exact absurd hfix (h3 f (by rw [hu, hu2.1]; simp))
      · exact absurd hfix (h3 w (by rw [hu]; simp [hw]))
    · rw [hu2]; simp
  rw [← h5.all] at hmem
  obtain ⟨g, hg, hg2⟩ := List.mem_flatten.mp hmem
  have : ∀ (gr : List (List (List Nat))) (cs : List (List Nat)), List.Forall₂ MergedFrom gr cs → g ∈ gr →
      ∃ c ∈ cs, MergedFrom g c := by
    intro gr cs hm
    induction hm with
    | nil => intro hg; simp at hg
    | @cons a b _ _ hb _ ih =>
      intro hg
      rcases List.mem_cons.mp hg with rfl | hg
      · exact ⟨b, by simp, hb⟩
      · obtain ⟨c, hc, hc2⟩ := ih hg
        exact ⟨c, by simp [hc], hc2⟩
  obtain ⟨c, hc, hc2⟩ := this _ _ h7 hg
  obtain ⟨o, ho, rfl⟩ := List.mem_map.mp hc
  exact ⟨o, ho, hc2.kept f hg2⟩

/-- A file without a fix, and one with a fix before its first sample. -/
def fileC : List Nat := bytes "#GemCSV0.9\nG,50,70,2020,6,20,5,21,23,43,-116\nM,55,2,3,4,5,6,7,8,9,10,11,12\nD60,101\n"

/-- **C58 is violated** by a file with a GPS line before its first sample: the line is in no output, and the fix is lost. -/
theorem C58_violated :
    bytes "G,50,70,2020,6,20,5,21,23,43,-116\n" <:+: fileC ∧
    ∃ out, gemCatFiles demoCatEnv false [fileA.text, fileB.text, fileC] = .ok [(bytes "FILE0000.077", out)] ∧
      ¬ bytes "G,50,70,2020,6,20,5,21,23,43,-116\n" <:+: out :=
  ⟨by decide +kernel, fileA.text ++ bytes "D40,6\nfl\nM,15,2,3,4,5,6,7,8,9,10,11,12\nD60,-3\n", by decide +kernel, by decide +kernel⟩

theorem textLines_append_lines : ∀ (ls : List (List Nat)) (rest : List Nat), (∀ l ∈ ls, NlLine l) →
    textLines (ls.flatten ++ rest) = ls ++ textLines rest := by
  intro ls rest
  induction ls with
  | nil => intro _; rfl
  | cons l ls ih =>
    intro h
    obtain ⟨body, rfl, hb⟩ := h l (by simp)
    rw [List.flatten_cons, List.append_assoc, textLines_line hb, ih fun x hx => h x (by simp [hx])]
    rfl

theorem findD_header : ∀ (ls more : List (List Nat)), (∀ l ∈ ls, notBlank l = true ∧ l.head? ≠ some 68) →
    findD (ls ++ more) = (findD more).map (· + ls.length) := by
  intro ls more
  induction ls with
  | nil => intro _; simp
  | cons l ls ih =>
    intro h
    obtain ⟨h1, h2⟩ := h l (by simp)
    have hp : peekLine (l :: (ls ++ more)) 0 = some (chomp l) := by simp [peekLine, h1]
    rw [List.cons_append, findD, hp]
    simp only [chomp_head h1]
    rw [if_neg h2, ih fun x hx => h x (by simp [hx])]
    cases findD more with
    | none => rfl
    | some j => simp; omega

/-- A header: a first line, and further ones, none of them blank or a sample. -/
def HeaderLines (v : List Nat) (pre : List (List Nat)) : Prop :=
  ∀ l ∈ v :: pre, (∃ body, l = body ++ [10] ∧ ∀ b ∈ body, b ≠ 10) ∧ (∃ b ∈ l, b ≠ 10 ∧ b ≠ 32) ∧ l.head? ≠ some 68

theorem appendText_header (env : CatEnv) (v : List Nat) (pre pre' : List (List Nat)) (rest prev : List Nat)
    (h : HeaderLines v pre) (h' : HeaderLines v pre') :
    appendText env (v ++ pre.flatten ++ rest) prev = appendText env (v ++ pre'.flatten ++ rest) prev := by
  have key : ∀ q : List (List Nat), HeaderLines v q →
      textLines (v ++ q.flatten ++ rest) = (v :: q) ++ textLines rest ∧
      formatVersion (v ++ q.flatten ++ rest) = some (String.ofList (((chomp v).drop 7).map Char.ofNat)) ∧
      findD ((v :: q) ++ textLines rest) = (findD (textLines rest)).map (· + (q.length + 1)) := by
    intro q hq
    have e : textLines (v ++ q.flatten ++ rest) = (v :: q) ++ textLines rest := by
      rw [← List.flatten_cons, textLines_append_lines _ _ fun l hl => (hq l hl).1]
    refine ⟨e, ?_, ?_⟩
    · unfold formatVersion
      rw [e]
      have hb := (notBlank_iff v).mpr (hq v (by simp)).2.1
      simp [peekLine, hb]
    · rw [findD_header _ _ fun l hl => ⟨(notBlank_iff l).mpr (hq l hl).2.1, (hq l hl).2.2⟩]
      rfl
  have hd : ∀ (q : List (List Nat)) (j : Nat), ((v :: q) ++ textLines rest).drop (j + (q.length + 1)) = (textLines rest).drop j := by
    intro q j
    rw [List.drop_append, List.drop_eq_nil_of_le (by simp)]
    simp
  obtain ⟨a1, a2, a3⟩ := key pre h
  obtain ⟨b1, b2, b3⟩ := key pre' h'
  unfold appendText
  rw [a2, b2]
  simp only [a1, b1]
  rw [a3, b3]
  cases findD (textLines rest) with
  | none => rfl
  | some j =>
    simp only [Option.map_some, peekLine, Nat.add_right_comm j _ 1, hd]

theorem catLoop_append (env : CatEnv) (all : Bool) (sn : List Nat) : ∀ (fs gs : List (List Nat)) (st : CatState),
    catLoop env all sn (fs ++ gs) st = (catLoop env all sn fs st).bind (catLoop env all sn gs) := by
  intro fs gs
  induction fs with
  | nil => intro st; rfl
  | cons f fs ih =>
    intro st
    rw [List.cons_append, catLoop, catLoop]
    cases catStep env all sn st f with
    | error x => rfl
    | ok st => exact ih st

/-- **C58 is violated** by what stands before the first sample of a file that is appended, GPS lines among it: with `cat_all`, the
output is the same whatever the last file's lines between its first line and its first sample are. -/
theorem C58_violated_header (env : CatEnv) (f : List Nat) (files : List (List Nat)) (v : List Nat) (pre pre' : List (List Nat))
    (rest : List Nat) (h : HeaderLines v pre) (h' : HeaderLines v pre') :
    gemCatFiles env true (f :: files ++ [v ++ pre.flatten ++ rest]) =
      gemCatFiles env true (f :: files ++ [v ++ pre'.flatten ++ rest]) := by
  unfold gemCatFiles
  simp only [List.cons_append]
  cases env.readSN f with
  | none => rfl
  | some sn =>
    simp only [catLoop, catStep, if_true]
    rw [catLoop_append, catLoop_append]
    cases hl : catLoop env true sn files ⟨[(bytes "FILE9999." ++ sn, f)], f, false⟩ with
    | error x => rfl
    | ok st =>
      obtain ⟨c', _, i2⟩ := catLoop_all files [f] _ _ f (.one f) rfl rfl hl
      simp only [Except.bind, catLoop, catStep, if_true]
      rw [if_neg (by simp [i2]), if_neg (by simp [i2]), appendText_header env v pre pre' rest st.prev h h']
      cases appendText env (v ++ pre'.flatten ++ rest) st.prev <;> rfl

theorem addToLast_ne {t : List Nat} : ∀ {l : List (List Nat × List Nat)}, l ≠ [] → addToLast t l ≠ []
  | [], h => absurd rfl h
  | [_], _ => by simp [addToLast]
  | _ :: _ :: _, _ => by simp [addToLast]

/-- One file by default: an output, once there, stays; a file with a fix makes one; `prevGps` is about the last file. -/
theorem catStep_default {env : CatEnv} {sn f : List Nat} {st st' : CatState} (h : catStep env false sn st f = .ok st') :
    (st.outs ≠ [] ∨ HasFix f → st'.outs ≠ []) ∧ (st'.prevGps = true → HasFix f) := by
  unfold catStep at h
  rw [if_neg (by decide)] at h
  cases hgp : hasGps f with
  | none => simp [hgp] at h
  | some g =>
    have hg := hasGps_true hgp
    simp only [hgp] at h
    split_ifs at h with c1 c2 c3 c4
    · simp only [Except.ok.injEq] at h
      subst h
      obtain ⟨rfl, c⟩ := c1
      refine ⟨?_, by simp⟩
      rintro (h | h)
      · exact absurd c h
      · exact absurd (hg.mpr h) (by decide)
    · simp only [Except.ok.injEq] at h
      subst h
      have : g = true := by
        cases g with
        | true => rfl
        | false => exact absurd ⟨rfl, c2⟩ c1
      exact ⟨by simp, fun _ => hg.mp this⟩
    · cases ha : appendText env f st.prev with
      | error x => simp [ha, Except.map] at h
      | ok t =>
        simp only [ha, Except.map, Except.ok.injEq] at h
        subst h
        exact ⟨fun _ => addToLast_ne c2, fun _ => hg.mp c3⟩
    · simp only [Except.ok.injEq] at h
      subst h
      exact ⟨by simp, fun _ => hg.mp c3⟩
    · cases ha : appendText env f st.prev with
      | error x => simp [ha, Except.map] at h
      | ok t =>
        simp only [ha, Except.map, Except.ok.injEq] at h
        subst h
        exact ⟨fun _ => addToLast_ne c2, by simp⟩

theorem catLoop_default {env : CatEnv} {sn : List Nat} : ∀ (fs : List (List Nat)) (st st' : CatState),
    catLoop env false sn fs st = .ok st' → (st.outs ≠ [] ∨ ∃ f ∈ fs, HasFix f) → st'.outs ≠ [] := by
  intro fs
  induction fs with
  | nil =>
    intro st st' h h2
    simp only [catLoop, Except.ok.injEq] at h
    subst h
    simpa using h2
  | cons f fs ih =>
    intro st st' h h2
    rw [catLoop] at h
    cases hs : catStep env false sn st f with
    | error x => simp [hs] at h
    | ok st1 =>
      simp only [hs] at h
      refine ih st1 st' h ?_
      rcases h2 with h2 | ⟨e, he, h2⟩
      · exact .inl ((catStep_default hs).1 (.inl h2))
      · rcases List.mem_cons.mp he with rfl | he
        · exact .inl ((catStep_default hs).1 (.inr h2))
        · exact .inr ⟨e, he, h2⟩

theorem hasGps_header (v : List Nat) (pre : List (List Nat)) (rest : List Nat) (h : HeaderLines v pre) :
    ∃ g, hasGps (v ++ pre.flatten ++ rest) = some g := by
  unfold hasGps
  have e : textLines (v ++ pre.flatten ++ rest) = (v :: pre) ++ textLines rest := by
    rw [← List.flatten_cons, textLines_append_lines _ _ fun l hl => (h l hl).1]
  have hb := (notBlank_iff v).mpr (h v (by simp)).2.1
  rw [e]
  simp [hb]

/-- The same by default, where the file before the last one has no fix, and an earlier one has: the output is the same whether
the last file has fixes in front of its first sample or none. -/
theorem C58_violated_header_default (env : CatEnv) (files : List (List Nat)) (p v : List Nat) (pre pre' : List (List Nat))
    (rest : List Nat) (h : HeaderLines v pre) (h' : HeaderLines v pre') (hfix : ∃ e ∈ files, HasFix e) (hp : ¬ HasFix p) :
    gemCatFiles env false (files ++ [p, v ++ pre.flatten ++ rest]) =
      gemCatFiles env false (files ++ [p, v ++ pre'.flatten ++ rest]) := by
  have step : ∀ (q : List (List Nat)) sn st, HeaderLines v q → st.outs ≠ [] → st.prevGps = false →
      (catStep env false sn st (v ++ q.flatten ++ rest)).map CatState.outs =
        (appendText env (v ++ q.flatten ++ rest) st.prev).map fun t => addToLast t st.outs := by
    intro q sn st hq ho hg
    obtain ⟨g, hgp⟩ := hasGps_header v q rest hq
    unfold catStep
    rw [if_neg (by decide)]
    simp only [hgp, ho, hg, and_false, if_false, if_true]
    cases appendText env (v ++ q.flatten ++ rest) st.prev <;> cases g <;> rfl
  have hne : files ≠ [] := by
    rintro rfl
    simp at hfix
  obtain ⟨f, fs, rfl⟩ := List.exists_cons_of_ne_nil hne
  unfold gemCatFiles
  simp only [List.cons_append]
  cases env.readSN f with
  | none => rfl
  | some sn =>
    simp only
    have e : ∀ x : List Nat, catLoop env false sn (f :: (fs ++ [p, x])) ⟨[], [], false⟩ =
        ((catLoop env false sn (f :: fs) ⟨[], [], false⟩).bind fun st => catStep env false sn st p).bind
          fun st => catStep env false sn st x := by
      intro x
      rw [← List.cons_append, catLoop_append]
      cases catLoop env false sn (f :: fs) ⟨[], [], false⟩ with
      | error y => rfl
      | ok st =>
        simp only [Except.bind, catLoop]
        cases catStep env false sn st p with
        | error y => rfl
        | ok st =>
          simp only
          cases catStep env false sn st x <;> rfl
    rw [e, e]
    cases hl : catLoop env false sn (f :: fs) ⟨[], [], false⟩ with
    | error y => rfl
    | ok st =>
      simp only [Except.bind]
      cases hs : catStep env false sn st p with
      | error y => rfl
      | ok st1 =>
        have h1 := (catStep_default hs).1 (.inl (catLoop_default _ _ _ hl (.inr hfix)))
        have h2 : st1.prevGps = false := by
          cases hx : st1.prevGps with
          | false => rfl
          | true => exact absurd ((catStep_default hs).2 hx) hp
        simp only
        rw [step pre sn st1 h h1 h2, step pre' sn st1 h' h1 h2, appendText_header env v pre pre' rest st1.prev h h']

/-- The fix of `fileC` is such a line. -/
example : HeaderLines (bytes "#GemCSV0.9\n") [bytes "G,50,70,2020,6,20,5,21,23,43,-116\n", bytes "M,55,2,3,4,5,6,7,8,9,10,11,12\n"] ∧
    HeaderLines (bytes "#GemCSV0.9\n") [] ∧ HasFix fileA.text ∧ ¬ HasFix fileB.text := by
  have e : ∀ (v : List Nat) (pre : List (List Nat)), (∀ l ∈ v :: pre, l = l.dropLast ++ [10] ∧ (∀ b ∈ l.dropLast, b ≠ 10) ∧
      notBlank l = true ∧ l.head? ≠ some 68) → HeaderLines v pre := fun v pre h l hl =>
    ⟨⟨l.dropLast, (h l hl).1, (h l hl).2.1⟩, (notBlank_iff l).mp (h l hl).2.2.1, (h l hl).2.2.2⟩
  refine ⟨e _ _ (by decide +kernel), e _ _ (by decide +kernel), ?_, ?_⟩
  · exact (hasGps_true (g := true) (by decide +kernel)).mp rfl
  · exact fun h => absurd ((hasGps_true (content := fileB.text) (g := false) (by decide +kernel)).mpr h) (by decide)

/-! ## C57 -/

/-- `name` is `FILE`, four digits making the number `n`, a point, and `ext` followed by anything. -/
def NamedCat (ext name : List Nat) (n : Nat) : Prop :=
  ∃ a b c d rest, name = bytes "FILE" ++ [48 + a, 48 + b, 48 + c, 48 + d] ++ bytes "." ++ ext ++ rest ∧
    a ≤ 9 ∧ b ≤ 9 ∧ c ≤ 9 ∧ d ≤ 9 ∧ n = 1000 * a + 100 * b + 10 * c + d

theorem catName_iff (ext s : List Nat) : catName ext s = true ↔ ∃ n, NamedCat ext s n := by
  have b1 : bytes "FILE" = [70, 73, 76, 69] := by decide +kernel
  have b2 : bytes "." = [46] := by decide +kernel
  constructor
  · intro h
    unfold catName at h
    simp only [Bool.and_eq_true, decide_eq_true_eq, b1] at h
    obtain ⟨⟨⟨h1, h2⟩, h3⟩, h4⟩ := h
    match s, h1, h2 with
    | f1 :: f2 :: f3 :: f4 :: a :: b :: c :: d :: r, h1, _ =>
      simp only [List.take_succ_cons, List.take_zero, List.drop_succ_cons, List.drop_zero, List.all_cons, List.all_nil,
        Bool.and_true, Bool.and_eq_true, isDigit_iff, List.cons.injEq, and_true] at h1 h3 h4
      obtain ⟨rfl, rfl, rfl, rfl⟩ := h1
      obtain ⟨ha, hb, hc, hd⟩ := h3
      refine ⟨1000 * (a - 48) + 100 * (b - 48) + 10 * (c - 48) + (d - 48), a - 48, b - 48, c - 48, d - 48,
        r.drop (1 + ext.length), ?_, by omega, by omega, by omega, by omega, rfl⟩
      rw [show 48 + (a - 48) = a by omega, show 48 + (b - 48) = b by omega, show 48 + (c - 48) = c by omega,
        show 48 + (d - 48) = d by omega, b1, b2]
      have e := List.take_append_drop (1 + ext.length) r
      rw [h4] at e
      conv_lhs => rw [← e]
      simp
  · rintro ⟨n, a, b, c, d, rest, rfl, ha, hb, hc, hd, _⟩
    unfold catName
    rw [b1, b2]
    simp only [List.cons_append, List.nil_append, List.take_succ_cons, List.take_zero, List.drop_succ_cons, List.drop_zero,
      List.all_cons, List.all_nil, Bool.and_true, Bool.and_eq_true, isDigit_iff, decide_eq_true_eq]
    refine ⟨⟨⟨trivial, rfl⟩, by omega⟩, ?_⟩
    rw [Nat.add_comm, List.take_succ_cons, List.take_left]

theorem insertRaw_perm (e : RawFile) : ∀ l : List RawFile, (insertRaw e l).Perm (e :: l)
  | [] => .refl _
  | f :: l => by
    unfold insertRaw
    split_ifs
    · exact .refl _
    · exact ((insertRaw_perm e l).cons f).trans (List.Perm.swap e f l)

theorem sortRaw_perm : ∀ l : List RawFile, (sortRaw l).Perm l
  | [] => .refl _
  | e :: l => (insertRaw_perm e _).trans ((sortRaw_perm l).cons e)

theorem insertRaw_sorted (e : RawFile) : ∀ l : List RawFile, l.Pairwise (fun a b => nameLe a.name b.name = true) →
    (insertRaw e l).Pairwise (fun a b => nameLe a.name b.name = true)
  | [], _ => by simp [insertRaw]
  | f :: l, h => by
    rw [List.pairwise_cons] at h
    unfold insertRaw
    split_ifs with c
    · refine List.pairwise_cons.mpr ⟨?_, List.pairwise_cons.mpr h⟩
      intro b hb
      rcases List.mem_cons.mp hb with rfl | hb
      · exact c
      · exact nameLe_trans _ _ _ c (h.1 b hb)
    · refine List.pairwise_cons.mpr ⟨?_, insertRaw_sorted e l h.2⟩
      intro b hb
      rcases List.mem_cons.mp ((insertRaw_perm e l).mem_iff.mp hb) with rfl | hb
      · exact nameLe_total _ _ (by simpa using c)
      · exact h.1 b hb

theorem sortRaw_sorted : ∀ l : List RawFile, (sortRaw l).Pairwise (fun a b => nameLe a.name b.name = true)
  | [] => .nil
  | e :: l => insertRaw_sorted e _ (sortRaw_sorted l)

theorem catNum_le {ext a b : List Nat} {m n : Nat} (ha : NamedCat ext a m) (hb : NamedCat ext b n)
    (h : nameLe a b = true) : m ≤ n := by
  obtain ⟨a1, a2, a3, a4, ra, rfl, _, _, _, _, rfl⟩ := ha
  obtain ⟨b1, b2, b3, b4, rb, rfl, _, _, _, _, rfl⟩ := hb
  have b1' : bytes "FILE" = [70, 73, 76, 69] := by decide +kernel
  have b2' : bytes "." = [46] := by decide +kernel
  simp only [b1', b2', List.cons_append, List.nil_append] at h
  have e : ∀ (c : Nat) (l m : List Nat), nameLe (c :: l) (c :: m) = nameLe l m := by
    intro c l m
    rw [nameLe]
    simp
  rw [e, e, e, e] at h
  simp only [nameLe, Bool.or_eq_true, Bool.and_eq_true, decide_eq_true_eq] at h
  rcases h with h | ⟨h1, h | ⟨h2, h | ⟨h3, h | ⟨h4, h | ⟨_, h⟩⟩⟩⟩⟩ <;> omega

/-- **C57 (missing: the extension must be given, and is only compared as far as it goes, see `C57_violated` and
`C57_violated_prefix`).** Merging uses exactly the files of the folder called `FILEdddd.<ext>...`, each once, in order of their
numbers, in whatever order the folder lists them. -/
theorem C57_selected_partial (env : CatEnv) (all : Bool) (ext : List Nat) (dir : List RawFile) :
    ∃ files : List RawFile, gemCat env all ext dir = gemCatFiles env all (files.map RawFile.content) ∧
      (∀ e, e ∈ files ↔ e ∈ dir ∧ ∃ n, NamedCat ext e.name n) ∧ (∀ e, files.count e ≤ dir.count e) ∧
      files.Pairwise fun e f => ∀ m n, NamedCat ext e.name m → NamedCat ext f.name n → m ≤ n := by
  refine ⟨_, rfl, ?_, ?_, ?_⟩
  · intro e
    rw [(sortRaw_perm _).mem_iff, List.mem_filter, catName_iff]
  · intro e
    rw [(sortRaw_perm _).count_eq]
    exact List.filter_sublist.count_le e
  · refine (sortRaw_sorted _).imp ?_
    intro e f h m n hm hn
    exact catNum_le hm hn h

/-- Two folders with the same files give the same result. -/
theorem C57_listing_order (env : CatEnv) (all : Bool) (ext : List Nat) (dir dir' : List RawFile) (hp : dir.Perm dir')
    (hd : (dir.map RawFile.name).Nodup) : gemCat env all ext dir = gemCat env all ext dir' := by
  unfold gemCat
  congr 2
  have h1 := sortRaw_perm (dir.filter fun e => catName ext e.name)
  have h2 := sortRaw_perm (dir'.filter fun e => catName ext e.name)
  have hn : ((dir.filter fun e => catName ext e.name).map RawFile.name).Nodup := hd.sublist (List.filter_sublist.map _)
  refine List.Perm.eq_of_pairwise ?_ (sortRaw_sorted _) (sortRaw_sorted _) (h1.trans ((hp.filter _).trans h2.symm))
  intro a b ha hb hab hba
  have e := nameLe_antisymm _ _ hab hba
  exact List.inj_on_of_nodup_map hn (h1.mem_iff.mp ha) ((hp.filter _).mem_iff.mpr (h2.mem_iff.mp hb)) e

/-- All outputs carry the serial number of the first file, whatever the serial numbers of the others. -/
theorem C57_one_serial_number (env : CatEnv) (files : List (List Nat)) (outs : List (List Nat × List Nat))
    (h : gemCatFiles env false files = .ok outs) :
    ∃ f sn, files.head? = some f ∧ env.readSN f = some sn ∧
      ∀ o ∈ outs, ∃ n, o.1 = bytes "FILE" ++ zeroPad 4 (natStr n) ++ bytes "." ++ sn := by
  obtain ⟨sn, _, _, gr, ⟨f, hf, hf2⟩, _, _, _, _, h6, _⟩ := gemCat_built env files outs h
  refine ⟨f, sn, hf, hf2, ?_⟩
  intro o ho
  have : o.1 ∈ outs.map Prod.fst := List.mem_map_of_mem ho
  rw [h6] at this
  obtain ⟨n, _, hn⟩ := List.mem_map.mp this
  exact ⟨n, hn.symm⟩

/-- Two instruments: number 001 wrote `fileA`, number 002 wrote `fileB`. -/
def twoEnv : CatEnv := { demoCatEnv with readSN := fun c => if c = fileA.text then some (bytes "001") else some (bytes "002") }

/-- **C57 is violated** when no extension is given: the file of instrument 002 is appended to that of instrument 001, and nothing
is written for 002. -/
theorem C57_violated :
    twoEnv.readSN fileA.text = some (bytes "001") ∧ twoEnv.readSN fileB.text = some (bytes "002") ∧
    gemCat twoEnv false [] [⟨bytes "FILE0000.001", fileA.text⟩, ⟨bytes "FILE0000.002", fileB.text⟩] =
      .ok [(bytes "FILE0000.001", fileA.text ++ bytes "D40,6\nfl\nM,15,2,3,4,5,6,7,8,9,10,11,12\n")] := by decide +kernel

/-- **C57 is violated** even with one: extension `001` also selects the files of instrument 0012. -/
theorem C57_violated_prefix :
    gemCat twoEnv false (bytes "001") [⟨bytes "FILE0000.001", fileA.text⟩, ⟨bytes "FILE0000.0012", fileB.text⟩] =
      .ok [(bytes "FILE0000.001", fileA.text ++ bytes "D40,6\nfl\nM,15,2,3,4,5,6,7,8,9,10,11,12\n")] := by decide +kernel

example : gemCat twoEnv false (bytes "001") [⟨bytes "FILE0000.002", fileB.text⟩, ⟨bytes "FILE0000.001", fileA.text⟩] =
    .ok [(bytes "FILE0000.001", fileA.text)] := by decide +kernel

end Gemlog
