import Verif.Props.Cli

/-!
# C47: exactly when serial numbers can be matched to station codes
-/

namespace Gemlog

theorem matchCodes_none (table : List CodeRow) (s : List Nat) (hbad : pyInt s = none) (sns : List (List Nat)) (hs : s ∈ sns) :
    matchCodes table sns = none := by
  induction sns with
  | nil => cases hs
  | cons a rest ih =>
    rcases List.mem_cons.mp hs with rfl | h
    · unfold matchCodes
      rw [hbad]
    · unfold matchCodes
      rw [ih h]
      cases pyInt a with
      | none => rfl
      | some n =>
        dsimp only
        split <;> simp

/-- **C47, exactly.** Take any options with a codes file whose serial numbers are numbers. The conversions are started (with what is said in `C47_codes_partial`) if and only if all
the serial numbers wanted, which without `-s` are those of all files in the folder, are numbers; otherwise the command ends by an uncaught exception. -/
theorem C47_exact (ws : List Word) (hv : ∀ w ∈ ws, w.Valid) (hh : Word.flag 104 ∉ ws) (ht : Word.flag 116 ∉ ws)
    (hp : 0 < typedProcesses ws) (env : CliEnv) (files : List (List Nat))
    (hdir : env.listdir ((typedValue ws 105).getD (bytes "raw")) = some files)
    (codesfile : List Nat) (hcodes : typedValue ws 99 = some codesfile) (table : List CodeRow)
    (htab : env.codes codesfile = some table) (hnum : ∀ r ∈ table, (pyInt r.sn).isSome) :
    ((∃ jobs, gemconvert env (ws.flatMap Word.typed) = .run jobs (typedProcesses ws)) ↔ ∀ s, WantedSNs ws files s → (pyInt s).isSome) ∧
    (gemconvert env (ws.flatMap Word.typed) = .crash ↔ ∃ s, WantedSNs ws files s ∧ pyInt s = none) := by
  have hbad : (∃ s, WantedSNs ws files s ∧ pyInt s = none) → gemconvert env (ws.flatMap Word.typed) = .crash := by
    rintro ⟨s, hs, hsn⟩
    obtain ⟨o, ho, h1, h2, h3, h4, -⟩ := typed_settings ws hv hh
    obtain ⟨-, k2⟩ := serialNumbers_spec o files ws h2 h3
    have hne' : ¬ (o.sns = none ∧ files = [] ∧ ws.map Word.meant = []) := by
      rintro ⟨_, _, hw⟩
      rw [List.map_eq_nil_iff] at hw
      rw [hw] at hcodes
      cases hcodes
    unfold gemconvert
    rw [C59_short_forms ws hv]
    simp only [ho]
    rw [h1, hdir]
    simp only [if_neg hne', h4, hcodes, htab, matchCodes_none table s hsn _ ((k2 s).mpr hs)]
  have hgood : (∀ s, WantedSNs ws files s → (pyInt s).isSome) → ∃ jobs, gemconvert env (ws.flatMap Word.typed) = .run jobs (typedProcesses ws) := by
    intro hwant
    obtain ⟨_, jobs, h, _⟩ := C47_codes_partial ws hv hh ht hp env files hdir codesfile hcodes table htab hnum hwant
    exact ⟨jobs, h⟩
  constructor
  · refine ⟨fun ⟨jobs, h⟩ s hs => ?_, hgood⟩
    cases hc : pyInt s with
    | some n => rfl
    | none =>
      rw [hbad ⟨s, hs, hc⟩] at h
      cases h
  · refine ⟨fun h => ?_, hbad⟩
    by_contra hno
    obtain ⟨jobs, h'⟩ := hgood fun s hs => by
      cases hc : pyInt s with
      | some n => rfl
      | none => exact absurd ⟨s, hs, hc⟩ hno
    rw [h] at h'
    cases h'

/-- With `-s 012` the stray file does not matter; without it the command fails. -/
example :
    let files := [bytes "FILE0001.012", bytes "FILE0003.TXT"]
    let env : CliEnv := ⟨fun _ => some files, fun _ => some demoCodes⟩
    gemconvert env ([Word.value 99 (bytes "codes.txt"), Word.value 115 (bytes "012")].flatMap Word.typed) =
      .run [jobFor [Word.value 99 (bytes "codes.txt"), Word.value 115 (bytes "012")] (bytes "012") (bytes "XP") (bytes "AAA") (bytes "01")] 1 ∧
    gemconvert env ([Word.value 99 (bytes "codes.txt")].flatMap Word.typed) = .crash := by
  decide +kernel

end Gemlog
