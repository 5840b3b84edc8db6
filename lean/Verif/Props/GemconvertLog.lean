import Verif.Model.GemconvertLog
import Mathlib.Data.List.Basic

/-!
# C114: what the log file of gemconvert tells

One can tell from the log which conversions failed, with any number of processes; which of them had problems only with one process. The explanation
of memory errors is never given for numpy's messages.
-/

namespace Gemlog

/-! ## Specification -/

/-- `log` holds the entries of all processes, those of each in their order: any order of writing. -/
inductive Woven {α : Type} : List (List α) → List α → Prop where
  | done (ls : List (List α)) (h : ∀ l ∈ ls, l = []) : Woven ls []
  | step (pre post : List (List α)) (x : α) (l log : List α) (h : Woven (pre ++ l :: post) log) : Woven (pre ++ (x :: l) :: post) (x :: log)

/-- Two conversions of which one reads the same in the log. -/
def SameReport : ConvEnd → ConvEnd → Prop
  | .ended c t, .ended c' t' => (c = 0 ∧ c' = 0) ∨ (0 < c ∧ 0 < c' ∧ t = t')
  | .failed m, .failed m' => parseError m = parseError m'
  | .interrupted, .interrupted => True
  | _, _ => False

/-! ## Lemmas -/

theorem Woven.mem {α : Type} {ls : List (List α)} {log : List α} (h : Woven ls log) (x : α) : x ∈ log ↔ ∃ l ∈ ls, x ∈ l := by
  induction h with
  | done ls h =>
    constructor
    · simp
    · rintro ⟨l, hl, hx⟩
      rw [h l hl] at hx
      cases hx
  | step pre post y l log _ ih =>
    rw [List.mem_cons, ih]
    simp only [List.mem_append, List.mem_cons]
    constructor
    · rintro (rfl | ⟨k, hk | rfl | hk, hx⟩)
      · exact ⟨x :: l, Or.inr (Or.inl rfl), by simp⟩
      · exact ⟨k, Or.inl hk, hx⟩
      · exact ⟨y :: k, Or.inr (Or.inl rfl), by simp [hx]⟩
      · exact ⟨k, Or.inr (Or.inr hk), hx⟩
    · rintro ⟨k, hk | rfl | hk, hx⟩
      · exact Or.inr ⟨k, Or.inl hk, hx⟩
      · rcases List.mem_cons.mp hx with rfl | hx
        · exact Or.inl rfl
        · exact Or.inr ⟨l, Or.inr (Or.inl rfl), hx⟩
      · exact Or.inr ⟨k, Or.inr (Or.inr hk), hx⟩

theorem strFind_none {pat s : List Nat} : strFind pat s = none ↔ ¬ pat <:+: s := by
  induction s with
  | nil =>
    unfold strFind
    by_cases h : pat = []
    · simp [h]
    · simp [h]
  | cons c s ih =>
    unfold strFind
    by_cases h : pat.isPrefixOf (c :: s) = true
    · rw [if_pos h]
      have : pat <+: c :: s := List.isPrefixOf_iff_prefix.mp h
      simp [this.isInfix]
    · rw [if_neg h, Option.map_eq_none_iff, ih, List.infix_cons_iff, not_or]
      rw [List.isPrefixOf_iff_prefix] at h
      simp [h]

theorem strFind_zero {pat s : List Nat} : strFind pat s = some 0 ↔ pat <+: s := by
  cases s with
  | nil =>
    unfold strFind
    by_cases h : pat = []
    · simp [h]
    · simp [h]
  | cons c s =>
    unfold strFind
    by_cases h : pat.isPrefixOf (c :: s) = true
    · rw [if_pos h]
      simp [List.isPrefixOf_iff_prefix.mp h]
    · rw [if_neg h]
      rw [List.isPrefixOf_iff_prefix] at h
      simp only [h, iff_false]
      intro hm
      obtain ⟨i, _, hi⟩ := Option.map_eq_some_iff.mp hm
      omega

theorem foundAfterStart_iff {pat s : List Nat} : foundAfterStart pat s = true ↔ pat <:+: s ∧ ¬ pat <+: s := by
  unfold foundAfterStart
  cases h : strFind pat s with
  | none =>
    have := strFind_none.mp h
    simp [this]
  | some i =>
    have h1 : pat <:+: s := by
      by_contra hc
      rw [strFind_none.mpr hc] at h
      cases h
    cases i with
    | zero => simp [strFind_zero.mp h]
    | succ i =>
      have h2 : ¬ pat <+: s := by
        intro hc
        rw [strFind_zero.mpr hc] at h
        cases h
      simp [h1, h2]

/-! ## The property -/

/-- **C114, which conversions failed.** With any number of processes, in whatever order their entries are written: there is an entry `Beginning` for each serial
number, an entry `Fatal error in` exactly for those whose conversion failed, with the error in another entry, and an entry `Completed` for all that were not
interrupted. -/
theorem C114_fatal (runs : List (List Nat × ConvEnd)) (hsn : (runs.map Prod.fst).Nodup) (log : List LogEntry)
    (h : Woven (runs.map fun r => singleLog r.1 r.2) log) (sn : List Nat) (e : ConvEnd) (hm : (sn, e) ∈ runs) :
    ⟨.info, bytes "Beginning " ++ sn⟩ ∈ log ∧
    (⟨.info, bytes "Fatal error in " ++ sn⟩ ∈ log ↔ ∃ m, e = .failed m) ∧
    (∀ m, e = .failed m → ⟨.error, parseError m⟩ ∈ log) ∧
    (⟨.info, bytes "Completed " ++ sn⟩ ∈ log ↔ e ≠ .interrupted) := by
  have huniq : ∀ e', (sn, e') ∈ runs → e' = e := by
    intro e' he'
    have := List.inj_on_of_nodup_map hsn he' hm rfl
    exact (Prod.mk.injEq .. ▸ this).2
  have hmem : ∀ x, x ∈ log ↔ ∃ r ∈ runs, x ∈ singleLog r.1 r.2 := by
    intro x
    rw [h.mem]
    simp
  have hall : ∀ x ∈ singleLog sn e, x ∈ log := fun x hx => (hmem x).mpr ⟨_, hm, hx⟩
  have hB : bytes "Beginning " = [66, 101, 103, 105, 110, 110, 105, 110, 103, 32] := by decide +kernel
  have hN : bytes "Non-fatal errors: " = [78, 111, 110, 45, 102, 97, 116, 97, 108, 32, 101, 114, 114, 111, 114, 115, 58, 32] := by decide +kernel
  have hC : bytes "Completed " = [67, 111, 109, 112, 108, 101, 116, 101, 100, 32] := by decide +kernel
  have hF : bytes "Fatal error in " = [70, 97, 116, 97, 108, 32, 101, 114, 114, 111, 114, 32, 105, 110, 32] := by decide +kernel
  have hI : bytes "Interrupted by user" = [73, 110, 116, 101, 114, 114, 117, 112, 116, 101, 100, 32, 98, 121, 32, 117, 115, 101, 114] := by decide +kernel
  refine ⟨hall _ (by cases e <;> simp [singleLog]), ⟨?_, ?_⟩, ?_, ⟨?_, ?_⟩⟩
  · intro hf
    obtain ⟨⟨sn', e'⟩, hr, hx⟩ := (hmem _).mp hf
    cases e' with
    | ended c t =>
      simp only [singleLog, List.mem_append, List.mem_cons, List.not_mem_nil, or_false, LogEntry.mk.injEq, true_and, hB, hN, hC, hF] at hx
      split at hx <;> simp at hx
    | failed m =>
      simp [singleLog, hB, hC, hF] at hx
      subst hx
      exact ⟨m, (huniq _ hr).symm⟩
    | interrupted => simp [singleLog, hB, hI, hF] at hx
  · rintro ⟨m, rfl⟩
    exact hall _ (by simp [singleLog])
  · rintro m rfl
    exact hall _ (by simp [singleLog])
  · rintro hc rfl
    obtain ⟨⟨sn', e'⟩, hr, hx⟩ := (hmem _).mp hc
    have hne : sn' = sn := by
      cases e' with
      | ended c t =>
        simp only [singleLog, List.mem_append, List.mem_cons, List.not_mem_nil, or_false, LogEntry.mk.injEq, true_and, hB, hN, hC] at hx
        split at hx <;> simp at hx <;> exact hx.symm
      | failed m =>
        simp [singleLog, hB, hC, hF] at hx
        exact hx.symm
      | interrupted => simp [singleLog, hB, hI, hC] at hx
    subst hne
    rw [huniq _ hr] at hx
    simp [singleLog, hB, hI, hC] at hx
  · intro hne
    cases e with
    | ended c t => exact hall _ (by simp [singleLog])
    | failed m => exact hall _ (by simp [singleLog])
    | interrupted => exact absurd rfl hne

/-- **C114, one process.** The conversions being done one after the other, the log determines which of them failed, were interrupted or had problems, and which
problems. -/
theorem C114_one_process : ∀ (runs runs' : List (List Nat × ConvEnd)), runs.map Prod.fst = runs'.map Prod.fst →
    (runs.flatMap fun r => singleLog r.1 r.2) = (runs'.flatMap fun r => singleLog r.1 r.2) →
    List.Forall₂ (fun r r' => r.1 = r'.1 ∧ SameReport r.2 r'.2) runs runs'
  | [], [], _, _ => List.Forall₂.nil
  | [], _ :: _, h, _ => by simp at h
  | _ :: _, [], h, _ => by simp at h
  | (sn, e) :: runs, (sn', e') :: runs', h, hl => by
    simp only [List.map_cons, List.cons.injEq] at h
    obtain ⟨rfl, h⟩ := h
    have hN : bytes "Non-fatal errors: " = [78, 111, 110, 45, 102, 97, 116, 97, 108, 32, 101, 114, 114, 111, 114, 115, 58, 32] := by decide +kernel
    have hC : bytes "Completed " = [67, 111, 109, 112, 108, 101, 116, 101, 100, 32] := by decide +kernel
    have hI : bytes "Interrupted by user" = [73, 110, 116, 101, 114, 114, 117, 112, 116, 101, 100, 32, 98, 121, 32, 117, 115, 101, 114] := by decide +kernel
    rw [List.flatMap_cons, List.flatMap_cons] at hl
    have key : SameReport e e' ∧ (runs.flatMap fun r => singleLog r.1 r.2) = (runs'.flatMap fun r => singleLog r.1 r.2) := by
      cases e with
      | ended c t =>
        cases e' with
        | ended c' t' =>
          rcases Nat.eq_zero_or_pos c with hc | hc <;> rcases Nat.eq_zero_or_pos c' with hc' | hc'
          · simpa [singleLog, SameReport, hc, hc', hN, hC] using hl
          · simp [singleLog, hc, hc', hN, hC] at hl
          · simp [singleLog, hc, hc', hN, hC] at hl
          · simpa [singleLog, SameReport, hc, hc', hN, hC, Nat.pos_iff_ne_zero.mp hc, Nat.pos_iff_ne_zero.mp hc'] using hl
        | failed m => rcases Nat.eq_zero_or_pos c with hc | hc <;> simp [singleLog, hc] at hl
        | interrupted => rcases Nat.eq_zero_or_pos c with hc | hc <;> simp [singleLog, hc, hN, hC, hI] at hl
      | failed m =>
        cases e' with
        | ended c' t' => rcases Nat.eq_zero_or_pos c' with hc | hc <;> simp [singleLog, hc] at hl
        | failed m' => simpa [singleLog, SameReport] using hl
        | interrupted => simp [singleLog] at hl
      | interrupted =>
        cases e' with
        | ended c' t' => rcases Nat.eq_zero_or_pos c' with hc | hc <;> simp [singleLog, hc, hN, hC, hI] at hl
        | failed m' => simp [singleLog] at hl
        | interrupted => simpa [singleLog, SameReport] using hl
    exact List.Forall₂.cons ⟨rfl, key.1⟩ (C114_one_process runs runs' h key.2)

/-- **C114 violated: problems.** With two processes the log does not tell which serial number had problems: the same log is left if they belong to the other. -/
theorem C114_violated_parallel (a b : List Nat) (n : Nat) (hn : 0 < n) (t : List Nat) :
    ∃ log, Woven [singleLog a (.ended n t), singleLog b (.ended 0 [])] log ∧ Woven [singleLog a (.ended 0 []), singleLog b (.ended n t)] log := by
  refine ⟨[⟨.info, bytes "Beginning " ++ a⟩, ⟨.info, bytes "Beginning " ++ b⟩, ⟨.info, bytes "Non-fatal errors: " ++ t⟩, ⟨.info, bytes "Completed " ++ a⟩,
    ⟨.info, bytes "Completed " ++ b⟩], ?_, ?_⟩
  · simp only [singleLog, if_pos hn, gt_iff_lt, lt_irrefl, if_false, List.cons_append, List.nil_append, List.append_nil]
    refine Woven.step [] [_] _ _ _ (Woven.step [_] [] _ _ _ (Woven.step [] [_] _ _ _ (Woven.step [] [_] _ _ _ (Woven.step [_] [] _ _ _ (Woven.done _ ?_)))))
    simp
  · simp only [singleLog, if_pos hn, gt_iff_lt, lt_irrefl, if_false, List.cons_append, List.nil_append, List.append_nil]
    refine Woven.step [] [_] _ _ _ (Woven.step [_] [] _ _ _ (Woven.step [_] [] _ _ _ (Woven.step [] [_] _ _ _ (Woven.step [_] [] _ _ _ (Woven.done _ ?_)))))
    simp

/-- **C114, explanations.** The log has an explanation instead of the message exactly in these cases: "Unable to allocate" is in the message, but not at its
beginning; or "NULLType" is. -/
theorem C114_explained (m : List Nat) :
    (bytes "Unable to allocate" <:+: m ∧ ¬ bytes "Unable to allocate" <+: m → parseError m = largeArrayText) ∧
    (¬ (bytes "Unable to allocate" <:+: m ∧ ¬ bytes "Unable to allocate" <+: m) → bytes "NULLType" <:+: m → ¬ bytes "NULLType" <+: m →
      parseError m = malformedText) ∧
    (¬ (bytes "Unable to allocate" <:+: m ∧ ¬ bytes "Unable to allocate" <+: m) → ¬ (bytes "NULLType" <:+: m ∧ ¬ bytes "NULLType" <+: m) →
      parseError m = m) := by
  unfold parseError
  refine ⟨?_, ?_, ?_⟩
  · intro h
    rw [if_pos (foundAfterStart_iff.mpr h)]
  · intro h h1 h2
    rw [if_neg (fun hc => h (foundAfterStart_iff.mp hc)), if_pos (foundAfterStart_iff.mpr ⟨h1, h2⟩)]
  · intro h h1
    rw [if_neg (fun hc => h (foundAfterStart_iff.mp hc)), if_neg (fun hc => h1 (foundAfterStart_iff.mp hc))]

/-- **C114 violated: memory errors.** No message that begins with "Unable to allocate", as those of numpy do, is explained as a time gap. -/
theorem C114_violated_memory (rest : List Nat) : parseError (bytes "Unable to allocate" ++ rest) ≠ largeArrayText := by
  have h1 : foundAfterStart (bytes "Unable to allocate") (bytes "Unable to allocate" ++ rest) = false := by
    rw [← Bool.not_eq_true, foundAfterStart_iff]
    exact fun h => h.2 (List.prefix_append _ _)
  unfold parseError
  rw [h1]
  simp only [Bool.false_eq_true, if_false]
  split
  · decide +kernel
  · intro h
    have : (bytes "Unable to allocate" ++ rest).head? = largeArrayText.head? := by rw [h]
    revert this
    rw [List.head?_append]
    have e : (bytes "Unable to allocate").head? = some 85 := by decide +kernel
    have e2 : largeArrayText.head? = some 84 := by decide +kernel
    rw [e, e2]
    simp

/-- **C114, the terminal.** `<SN> done` is printed exactly for the conversions that ended (an error whose message is this text aside); for the others
the message of the error is printed, or that the conversion was interrupted. -/
theorem C114_printed (sn : List Nat) (e : ConvEnd) :
    (e ≠ .failed (sn ++ bytes " done") → (singlePrinted sn e = sn ++ bytes " done" ↔ ∃ n t, e = .ended n t)) ∧
    (∀ m, e = .failed m → singlePrinted sn e = m) ∧ (e = .interrupted → singlePrinted sn e = bytes "Interrupted") := by
  refine ⟨fun he => ⟨fun h => ?_, fun ⟨n, t, h⟩ => by rw [h]; rfl⟩, fun m h => by rw [h]; rfl, fun h => by rw [h]; rfl⟩
  cases e with
  | ended n t => exact ⟨n, t, rfl⟩
  | failed m =>
    have hm : m = sn ++ bytes " done" := h
    exact absurd (by rw [hm]) he
  | interrupted =>
    have h1 : (bytes "Interrupted").getLast? = (sn ++ bytes " done").getLast? := by rw [← h]; rfl
    rw [List.getLast?_append, show (bytes " done").getLast? = some 101 by decide +kernel,
      show (bytes "Interrupted").getLast? = some 100 by decide +kernel] at h1
    simp at h1

/-! ## Examples -/

example : singlePrinted (bytes "012") (.ended 1 (bytes "x")) = bytes "012 done" ∧ singlePrinted (bytes "012") (.failed (bytes "x")) ≠ bytes "012 done" := by
  decide +kernel

/-- Two processes, one conversion with an error. -/
example : let runs := [(bytes "012", ConvEnd.ended 0 []), (bytes "013", ConvEnd.failed (bytes "'NULLType'"))]
    (runs.map Prod.fst).Nodup ∧ Woven (runs.map fun r => singleLog r.1 r.2)
      [⟨.info, bytes "Beginning 012"⟩, ⟨.info, bytes "Beginning 013"⟩, ⟨.error, bytes "Suspected malformed file"⟩, ⟨.info, bytes "Completed 012"⟩,
        ⟨.info, bytes "Fatal error in 013"⟩, ⟨.info, bytes "Completed 013"⟩] := by
  refine ⟨by decide +kernel, ?_⟩
  have h1 : singleLog (bytes "012") (.ended 0 []) = [⟨.info, bytes "Beginning 012"⟩, ⟨.info, bytes "Completed 012"⟩] := by decide +kernel
  have h2 : singleLog (bytes "013") (.failed (bytes "'NULLType'")) = [⟨.info, bytes "Beginning 013"⟩, ⟨.error, bytes "Suspected malformed file"⟩,
      ⟨.info, bytes "Fatal error in 013"⟩, ⟨.info, bytes "Completed 013"⟩] := by decide +kernel
  simp only [List.map_cons, List.map_nil, h1, h2]
  refine Woven.step [] [_] _ _ _ (Woven.step [_] [] _ _ _ (Woven.step [_] [] _ _ _ (Woven.step [] [_] _ _ _ (Woven.step [_] [] _ _ _
    (Woven.step [_] [] _ _ _ (Woven.done _ ?_))))))
  simp

/-- Messages of numpy: a memory error inside another message is explained, its own message is not. -/
example : parseError (bytes "Unable to allocate 7.28 TiB for an array with shape (1000000000000,) and data type float64") =
      bytes "Unable to allocate 7.28 TiB for an array with shape (1000000000000,) and data type float64" ∧
    parseError (bytes "MemoryError: Unable to allocate 7.28 TiB") = largeArrayText := by
  decide +kernel

/-- Logs of one process that agree. -/
example : let runs := [(bytes "012", ConvEnd.ended 2 (bytes "[x, y]")), (bytes "013", ConvEnd.interrupted)]
    List.Forall₂ (fun r r' => r.1 = r'.1 ∧ SameReport r.2 r'.2) runs runs :=
  C114_one_process _ _ rfl rfl

end Gemlog
