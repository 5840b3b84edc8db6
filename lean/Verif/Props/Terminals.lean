import Verif.Model.Terminals

/-!
# Property C94: the command lines of the cross-correlation
-/

namespace Gemlog

theorem split_comma (l : List Nat) (h : 44 ∉ l) : pySplit 44 l = [l] := by
  induction l with
  | nil => rfl
  | cons x l ih =>
    rw [List.mem_cons, not_or] at h
    unfold pySplit
    rw [if_neg (fun hx => h.1 hx.symm), ih h.2]

theorem split_comma_cons (w : List Nat) (l : List Nat) (h : 44 ∉ w) : pySplit 44 (w ++ 44 :: l) = w :: pySplit 44 l := by
  induction w with
  | nil => rw [List.nil_append]; conv_lhs => unfold pySplit; rw [if_pos rfl]
  | cons x w ih =>
    rw [List.mem_cons, not_or] at h
    rw [List.cons_append]
    conv_lhs => unfold pySplit
    rw [if_neg (fun hx => h.1 hx.symm), ih h.2]

/-- Texts joined with commas. -/
def commaJoin : List (List Nat) → List Nat
  | [] => []
  | [w] => w
  | w :: ws => w ++ 44 :: commaJoin ws

theorem split_commaJoin : ∀ (ws : List (List Nat)), ws ≠ [] → (∀ w ∈ ws, 44 ∉ w) → pySplit 44 (commaJoin ws) = ws := by
  intro ws
  induction ws with
  | nil => intro h _; exact absurd rfl h
  | cons w ws ih =>
    intro _ h
    cases ws with
    | nil => exact split_comma w (h w (by simp))
    | cons v vs =>
      show pySplit 44 (w ++ 44 :: commaJoin (v :: vs)) = _
      rw [split_comma_cons w _ (h w (by simp)), ih (by simp) (fun x hx => h x (by simp only [List.mem_cons] at hx ⊢; tauto))]

/-- **C94, lags.** With an output file, times that are understood and stations listed with commas in between, `waveform_calc_lags` runs the analysis for the files, times, stations and
settings given. If that succeeds, and the output can be written, it holds the resulting table afterwards and no other file has changed. If anything fails, no file has
changed. -/
theorem C94_lags (isTime : List Nat → Bool) (run : LagCall → Except Exc (List Nat)) (writable : List Nat → Bool) (fs : FileSys) (files : List (List Nat))
    (out t1 t2 : List Nat) (ids excluded : Option (List (List Nat))) (fl fh w o u : Rat) (quiet : Bool)
    (hi : ∀ l, ids = some l → l ≠ [] ∧ ∀ x ∈ l, 44 ∉ x) (he : ∀ l, excluded = some l → l ≠ [] ∧ ∀ x ∈ l, 44 ∉ x) :
    let r := xcorrTerminal isTime run writable fs
      ⟨files, some out, ids.map commaJoin, excluded.map commaJoin, t1, t2, fl, fh, w, o, u, quiet⟩
    (∀ text, isTime t1 = true → isTime t2 = true → run ⟨files, t1, t2, ids, excluded, fl, fh, w, o, u, quiet⟩ = .ok text → writable out = true →
      r.1 = none ∧ r.2 out = some text ∧ ∀ p, p ≠ out → r.2 p = fs p) ∧
    (isTime t1 = false ∨ isTime t2 = false ∨ writable out = false ∨ (∃ e, run ⟨files, t1, t2, ids, excluded, fl, fh, w, o, u, quiet⟩ = .error e) →
      r.1 ≠ none ∧ r.2 = fs) := by
  have h1 : (ids.map commaJoin).map (pySplit 44) = ids := by
    cases ids with
    | none => rfl
    | some l => simp only [Option.map_some]; rw [split_commaJoin l (hi l rfl).1 (hi l rfl).2]
  have h2 : (excluded.map commaJoin).map (pySplit 44) = excluded := by
    cases excluded with
    | none => rfl
    | some l => simp only [Option.map_some]; rw [split_commaJoin l (he l rfl).1 (he l rfl).2]
  have hc : lagCall ⟨files, some out, ids.map commaJoin, excluded.map commaJoin, t1, t2, fl, fh, w, o, u, quiet⟩ =
      ⟨files, t1, t2, ids, excluded, fl, fh, w, o, u, quiet⟩ := by
    unfold lagCall
    simp only [h1, h2]
  unfold xcorrTerminal
  simp only [hc]
  refine ⟨?_, ?_⟩
  · intro text ha hb hr hw
    simp only [ha, hb, hr, hw, Bool.not_true, Bool.false_eq_true, if_false, if_true]
    refine ⟨trivial, ?_, ?_⟩
    · unfold FileSys.write; rw [if_pos rfl]
    · intro p hp; unfold FileSys.write; rw [if_neg hp]
  · intro h
    by_cases ha : isTime t1 = true
    · by_cases hb : isTime t2 = true
      · simp only [ha, hb, Bool.not_true, Bool.false_eq_true, if_false]
        cases hr : run ⟨files, t1, t2, ids, excluded, fl, fh, w, o, u, quiet⟩ with
        | error e => exact ⟨by simp, rfl⟩
        | ok text =>
          have hw : writable out = false := by
            rcases h with h | h | h | ⟨e, h⟩
            · rw [ha] at h; exact absurd h (by simp)
            · rw [hb] at h; exact absurd h (by simp)
            · exact h
            · rw [hr] at h; exact absurd h (by simp)
          simp only [hw, Bool.false_eq_true, if_false]
          exact ⟨by simp, trivial⟩
      · simp only [ha, Bool.not_true, Bool.false_eq_true, if_false, Bool.not_eq_true] at hb ⊢
        simp only [hb, Bool.not_false, if_true]
        exact ⟨by simp, trivial⟩
    · simp only [Bool.not_eq_true] at ha
      simp only [ha, Bool.not_false, if_true]
      exact ⟨by simp, trivial⟩

/-- Three stations as in the examples of the help text. -/
example : commaJoin [bytes "121", bytes "122", bytes "123"] = bytes "121,122,123" ∧ ∀ x ∈ [bytes "121", bytes "122", bytes "123"], 44 ∉ x := by
  decide +kernel

/-- **C94, no output file.** Without an output file nothing is run and nothing is written, whatever else is given. -/
theorem C94_no_output (isTime : List Nat → Bool) (run : LagCall → Except Exc (List Nat)) (writable : List Nat → Bool) (fs : FileSys) (a : LagArgs)
    (h : a.output = none) : xcorrTerminal isTime run writable fs a = (some .other, fs) := by
  unfold xcorrTerminal
  rw [h]

/-- **C94, violated: defaults.** Given only files, the command line does not do what `xcorr_all` does when given only files: the upper corner is 40 Hz, not 20 Hz. It does what `xcorr_all` does
with 40 Hz. -/
theorem C94_violated_defaults (files : List (List Nat)) (out : List Nat) :
    lagCall { files := files, output := some out } ≠ { files := files } ∧ lagCall { files := files, output := some out } = { files := files, fh := 40 } := by
  refine ⟨?_, rfl⟩
  intro h
  have := congrArg LagCall.fh h
  simp [lagCall] at this

/-- **C94, directions.** If the lags and the locations can be read, the output can be written and the inversion succeeds, the output holds the table with the slowness of each window afterwards, and no
other file has changed (the output may be the input). A missing option, an unreadable input or an output that cannot be written is refused before any file changes. -/
theorem C94_direction (readLags : List Nat → Option LagTable) (readLocs : List Nat → Option (List LocRow))
    (print : LagTable → List (Option (Rat × Rat)) → List Nat) (writable : List Nat → Bool) (fs : FileSys) :
    (∀ input location out text1 text2 tbl locs res, fs input = some text1 → readLags text1 = some tbl → fs location = some text2 → readLocs text2 = some locs →
      writable out = true → invertForSlowness tbl locs = .ok res →
      let r := directionTerminal readLags readLocs print writable fs ⟨some input, some location, some out⟩
      r.1 = none ∧ r.2 out = some (print tbl res) ∧ ∀ p, p ≠ out → r.2 p = fs p) ∧
    (∀ a : DirArgs, a.input = none ∨ a.location = none ∨ a.output = none ∨ (∃ p, a.input = some p ∧ (fs p).bind readLags = none) ∨
        (∃ p, a.location = some p ∧ (fs p).bind readLocs = none) ∨ (∃ p, a.output = some p ∧ writable p = false) →
      directionTerminal readLags readLocs print writable fs a = (some .other, fs)) := by
  refine ⟨?_, ?_⟩
  · intro input location out text1 text2 tbl locs res h1 h2 h3 h4 h5 h6
    unfold directionTerminal
    simp only [h1, h2, h3, h4, h5, h6, Option.bind_some, Bool.not_true, Bool.false_eq_true, if_false]
    refine ⟨trivial, ?_, ?_⟩
    · unfold FileSys.write; rw [if_pos rfl]
    · intro p hp; unfold FileSys.write; rw [if_neg hp, if_neg hp]
  · intro a h
    obtain ⟨i, l, o⟩ := a
    unfold directionTerminal
    cases i with
    | none => rfl
    | some i =>
      cases l with
      | none => rfl
      | some l =>
        cases o with
        | none => rfl
        | some o =>
          simp only [Option.some.injEq, exists_eq_left', reduceCtorEq, false_or] at h ⊢
          cases h1 : (fs i).bind readLags with
          | none => rfl
          | some tbl =>
            simp only
            cases h2 : (fs l).bind readLocs with
            | none => rfl
            | some locs =>
              simp only
              have hw : writable o = false := by
                rcases h with h | h | h
                · rw [h1] at h; exact absurd h (by simp)
                · rw [h2] at h; exact absurd h (by simp)
                · exact h
              rw [hw]
              rfl

/-- **C94, violated: a failing inversion empties the output.** If the inversion fails, for example since a station has no location or since all are on one line, the output file is empty afterwards,
whatever it held before: also if it is the table of lags itself, which is then lost. -/
theorem C94_violated_emptied (readLags : List Nat → Option LagTable) (readLocs : List Nat → Option (List LocRow))
    (print : LagTable → List (Option (Rat × Rat)) → List Nat) (writable : List Nat → Bool) (fs : FileSys) (input location out text1 text2 : List Nat) (tbl : LagTable)
    (locs : List LocRow) (e : Exc) (h1 : fs input = some text1) (h2 : readLags text1 = some tbl) (h3 : fs location = some text2) (h4 : readLocs text2 = some locs)
    (h5 : writable out = true) (h6 : invertForSlowness tbl locs = .error e) :
    (directionTerminal readLags readLocs print writable fs ⟨some input, some location, some out⟩).1 ≠ none ∧
    (directionTerminal readLags readLocs print writable fs ⟨some input, some location, some out⟩).2 out = some [] := by
  unfold directionTerminal
  simp only [h1, h2, h3, h4, h5, h6, Option.bind_some, Bool.not_true, Bool.false_eq_true, if_false]
  refine ⟨by simp, ?_⟩
  unfold FileSys.write
  rw [if_pos rfl]

/-- A table with three stations, of which the location table has only two: the inversion fails; with all three it succeeds. -/
def demoLags : LagTable :=
  [(bytes "rms_X.A.", [some 1]), (bytes "lag_X.A._X.B.", [some (-1)]), (bytes "rms_X.B.", [some 1]), (bytes "lag_X.B._X.C.", [some 1]),
   (bytes "rms_X.C.", [some 1]), (bytes "lag_X.C._X.A.", [some 0])]

def demoSites : List LocRow := [⟨bytes "X", bytes "A", [], 0, 0⟩, ⟨bytes "X", bytes "B", [], 1, 0⟩, ⟨bytes "X", bytes "C", [], 0, 1⟩]

example : (invertForSlowness demoLags (demoSites.take 2)).toOption = none ∧
    (invertForSlowness demoLags demoSites).toOption = some [some (1, 0)] := by
  decide +kernel

end Gemlog
