import Verif.Props.Parser
import Verif.Spec.Number

/-! # C03: every way of writing the numbers of a line -/

namespace Gemlog

/-- Is it a minus (helper). -/
def Sign.isMinus : Sign → Bool
  | .minus => true
  | _ => false

theorem digits_of {l : List Nat} (h : ∀ b ∈ l, 48 ≤ b ∧ b ≤ 57) : ∀ d ∈ l, isDigit d = true :=
  fun d hd => isDigit_iff.mpr (h d hd)

theorem dropWhile_pad {pad s : List Nat} (hp : ∀ b ∈ pad, b = 32 ∨ b = 9) (hs : ∀ b ∈ s.head?, isSpace b = false) :
    (pad ++ s).dropWhile isSpace = s := by
  induction pad with
  | nil =>
    cases s with
    | nil => rfl
    | cons b s => simpa using dropSpace_of (l := s) (hs b (by simp))
  | cons b pad ih =>
    have : isSpace b = true := by
      rcases hp b (by simp) with rfl | rfl <;> decide
    rw [List.cons_append, List.dropWhile_cons, if_pos this]
    exact ih fun c hc => hp c (by simp [hc])

theorem scanSign_text (s : Sign) {l : List Nat} (hl : ∀ b ∈ l.head?, b ≠ 45 ∧ b ≠ 43) :
    scanSign (s.text ++ l) = (s.isMinus, l) := by
  cases s with
  | plus => rfl
  | minus => rfl
  | none =>
    cases l with
    | nil => rfl
    | cons b l =>
      obtain ⟨h1, h2⟩ := hl b (by simp)
      show scanSign (b :: l) = (false, b :: l)
      unfold scanSign
      split
      · rename_i h; simp at h; omega
      · rename_i h; simp at h; omega
      · rfl

theorem scanExp_text {e : Option (Bool × Sign × List Nat)} {rest : List Nat}
    (he : ∀ c s d, e = some (c, s, d) → d ≠ [] ∧ ∀ b ∈ d, 48 ≤ b ∧ b ≤ 57) (hr : EndsNum rest) :
    ∃ k : Int, scanExp (expText e ++ rest) = (k, rest) ∧ (10 : Rat) ^ k = expVal e := by
  rcases e with _ | ⟨c, s, d⟩
  · exact ⟨0, scanExp_other fun b hb => (hr b hb).2.2, by simp [expVal]⟩
  · obtain ⟨hne, hd⟩ := he c s d rfl
    have ht := takeWhile_digits (digits_of hd) fun b hb => (hr b hb).1
    have hs : scanSign (s.text ++ (d ++ rest)) = (s.isMinus, d ++ rest) := by
      apply scanSign_text
      intro b hb
      cases d with
      | nil => exact absurd rfl hne
      | cons x d =>
        have := hd x (by simp)
        simp at hb
        omega
    have e1 : expText (some (c, s, d)) ++ rest = (if c then 69 else 101) :: (s.text ++ (d ++ rest)) := by
      simp [expText]
    refine ⟨(if s.isMinus = true then -(digitsVal d : Int) else digitsVal d), ?_, ?_⟩
    · rw [e1, scanExp, if_pos (by cases c <;> simp), hs]
      simp only [ht.1, ht.2]
    · cases s <;> simp [expVal, Sign.isMinus]

theorem Number.tail_head {x : Number} (h : x.Valid) (rest : List Nat) :
    ∀ b ∈ (x.ip ++ ((if x.point then 46 :: x.fp else []) ++ expText x.exp ++ rest)).head?, b = 46 ∨ 48 ≤ b ∧ b ≤ 57 := by
  intro b hb
  cases hip : x.ip with
  | cons y l =>
    rw [hip] at hb
    simp at hb
    have := h.ip y (by rw [hip]; simp)
    omega
  | nil =>
    have hf : x.fp ≠ [] := h.some_digit.resolve_left (by simp [hip])
    have hp : x.point = true := by
      by_contra hc
      exact hf (h.no_point (by simpa using hc))
    rw [hip, hp] at hb
    simp at hb
    left; omega

theorem Number.text_append (x : Number) (rest : List Nat) :
    x.text ++ rest = x.pad ++ (x.sign.text ++ (x.ip ++ ((if x.point then 46 :: x.fp else []) ++ expText x.exp ++ rest))) := by
  simp [Number.text]

theorem Number.sign_scan {x : Number} (h : x.Valid) (rest : List Nat) :
    scanSign ((x.text ++ rest).dropWhile isSpace)
      = (x.sign.isMinus,
          x.ip ++ ((if x.point then 46 :: x.fp else []) ++ expText x.exp ++ rest)) := by
  have hh := Number.tail_head h rest
  rw [x.text_append, dropWhile_pad h.pad]
  · apply scanSign_text
    intro b hb
    have := hh b hb
    omega
  · intro b hb
    revert hb
    cases x.sign with
    | plus => intro hb; simp [Sign.text] at hb; subst hb; decide
    | minus => intro hb; simp [Sign.text] at hb; subst hb; decide
    | none =>
      intro hb
      have := hh b (by simpa [Sign.text] using hb)
      simp [isSpace]
      omega

/-- The rest behind the digits before the point does not start with a digit (helper). -/
theorem Number.after_ip {x : Number} {rest : List Nat} (hr : EndsNum rest) :
    ∀ b ∈ ((if x.point then 46 :: x.fp else []) ++ expText x.exp ++ rest).head?, isDigit b = false := by
  intro b hb
  cases hp : x.point with
  | true => rw [hp] at hb; simp at hb; subst hb; decide
  | false =>
    rw [hp] at hb
    rcases he : x.exp with _ | ⟨c, s, d⟩
    · rw [he] at hb; simp [expText] at hb; exact (hr b (by simpa using hb)).1
    · rw [he] at hb
      simp [expText] at hb
      subst hb
      cases c <;> decide

theorem scanLf_number {x : Number} (h : x.Valid) {rest : List Nat} (hr : EndsNum rest) :
    scanLf (x.text ++ rest) = some (x.val, rest) := by
  have ht := takeWhile_digits (digits_of h.ip) (Number.after_ip (x := x) hr)
  obtain ⟨k, hk, hk2⟩ := scanExp_text h.exp hr
  have hfrac : scanFrac ((if x.point then 46 :: x.fp else []) ++ expText x.exp ++ rest) = (x.fp, expText x.exp ++ rest) := by
    cases hp : x.point with
    | true =>
      have he : ∀ b ∈ (expText x.exp ++ rest).head?, isDigit b = false := by
        intro b hb
        rcases he : x.exp with _ | ⟨c, s, d⟩
        · rw [he] at hb; exact (hr b (by simpa [expText] using hb)).1
        · rw [he] at hb
          simp [expText] at hb
          subst hb
          cases c <;> decide
      simpa using scanFrac_dot (digits_of h.fp) he
    | false =>
      rw [h.no_point hp]
      simp only [Bool.false_eq_true, if_false, List.nil_append]
      apply scanFrac_other
      intro b hb
      rcases he : x.exp with _ | ⟨c, s, d⟩
      · rw [he] at hb; exact (hr b (by simpa [expText] using hb)).2.1
      · rw [he] at hb
        simp [expText] at hb
        subst hb
        cases c <;> decide
  unfold scanLf
  rw [Number.sign_scan h]
  simp only [ht, hfrac, hk]
  rw [if_neg (by rintro ⟨h1, h2⟩; rcases h.some_digit with h3 | h3 <;> contradiction)]
  simp only [hk2, Number.val]
  cases x.sign <;> simp [Sign.apply, Sign.isMinus]

theorem scanInt_number {x : Number} (h : x.Valid) (hw : x.Whole) {rest : List Nat} (hr : EndsNum rest) :
    ∃ z : Int, scanInt (x.text ++ rest) = some (z, rest) ∧ (z : Rat) = x.val := by
  have ht := takeWhile_digits (digits_of h.ip) (Number.after_ip (x := x) hr)
  obtain ⟨hp, he⟩ := hw
  have hf := h.no_point hp
  have hip : x.ip ≠ [] := h.some_digit.resolve_right (by simp [hf])
  unfold scanInt
  rw [Number.sign_scan h]
  simp only [ht, if_neg hip]
  rw [hp, he]
  refine ⟨_, rfl, ?_⟩
  unfold Number.val
  rw [he, hf]
  cases x.sign <;> simp [Sign.apply, expVal, digitsVal, Sign.isMinus]

/-- A number written in the way its directive expects (helper). -/
def FitsNumber : Conv → Number → Prop
  | .d, x => x.Valid ∧ x.Whole
  | .lf, x => x.Valid

theorem scanConv_number {c : Conv} {x : Number} (h : FitsNumber c x) {rest : List Nat} (hr : EndsNum rest) :
    scanConv c (x.text ++ rest) = some (x.val, rest) := by
  cases c with
  | lf => exact scanLf_number h hr
  | d =>
    obtain ⟨z, h1, h2⟩ := scanInt_number h.1 h.2 hr
    simp [scanConv, h1, h2]

theorem sscanf_numbers : ∀ (cs : List Conv) (l : List Number), List.Forall₂ FitsNumber cs l →
    sscanf cs (joinNumbers l ++ [10]) = l.map Number.val := by
  intro cs l h
  induction h with
  | nil => simp [sscanf]
  | @cons c x cs l hx hl ih =>
    cases l with
    | nil =>
      cases hl
      simp only [joinNumbers, sscanf, List.map_cons, List.map_nil]
      rw [scanConv_number hx (endsNum_nl [])]
      rfl
    | cons y l =>
      simp only [joinNumbers, sscanf, List.map_cons, List.append_assoc, List.cons_append]
      rw [scanConv_number hx (endsNum_comma _)]
      simp only [List.cons.injEq, true_and]
      simpa using ih

theorem Number.bytes {x : Number} (h : x.Valid) : ∀ b ∈ x.text, b ≠ 0 ∧ b ≠ 10 := by
  have hsign : ∀ s : Sign, ∀ b ∈ s.text, b ≠ 0 ∧ b ≠ 10 := by
    intro s b hb
    cases s <;> simp [Sign.text] at hb <;> omega
  intro b hb
  simp only [Number.text, List.mem_append] at hb
  rcases hb with hb | hb | hb | hb | hb
  · have := h.pad b hb; omega
  · exact hsign _ b hb
  · have := h.ip b hb; omega
  · split_ifs at hb
    · rcases List.mem_cons.mp hb with rfl | hb
      · decide
      · have := h.fp b hb; omega
    · simp at hb
  · rcases he : x.exp with _ | ⟨c, s, d⟩
    · rw [he] at hb; simp [expText] at hb
    · rw [he] at hb
      simp only [expText, List.mem_cons, List.mem_append] at hb
      rcases hb with rfl | hb | hb
      · cases c <;> decide
      · exact hsign _ b hb
      · have := (h.exp c s d he).2 b hb; omega

theorem joinNumbers_bytes (l : List Number) (h : ∀ x ∈ l, x.Valid) : ∀ b ∈ joinNumbers l, b ≠ 0 ∧ b ≠ 10 := by
  induction l with
  | nil => simp [joinNumbers]
  | cons x l ih =>
    cases l with
    | nil => simpa [joinNumbers] using Number.bytes (h x (by simp))
    | cons y l =>
      intro b hb
      simp only [joinNumbers, List.mem_append, List.mem_cons] at hb
      rcases hb with hb | hb | hb
      · exact Number.bytes (h x (by simp)) b hb
      · subst hb; decide
      · exact ih (fun z hz => h z (by simp [hz])) b (by simpa [joinNumbers] using hb)

/-- **C03.** However its two numbers are written, a D line after any complete lines is read exactly. -/
theorem C03_numbers_D (buf0 pre : List Nat) (hpre : EndsLine pre) (t adc : Number) (ht : t.Valid) (ha : adc.Valid)
    (hw : adc.Whole) (hlen : (joinNumbers [t, adc]).length ≤ 253) :
    parseGem buf0 (pre ++ (bytes "D" ++ joinNumbers [t, adc] ++ [10]))
      = parseGem buf0 pre ++ [⟨.D, t.val, adc.val :: List.replicate 10 0⟩] := by
  have hbytes := joinNumbers_bytes [t, adc] (by simp [ht, ha])
  obtain ⟨st, buf, _, hp⟩ := parse_append_line buf0 pre (68 :: joinNumbers [t, adc]) hpre
    (by intro b hb; rcases List.mem_cons.mp hb with hb | hb
        · subst hb; decide
        · exact (hbytes b hb).2)
    (by simp only [List.length_cons]; omega)
  rw [show bytes "D" ++ joinNumbers [t, adc] ++ [10] = 68 :: joinNumbers [t, adc] ++ [10] from rfl, hp]
  congr 1
  have hs : cstr (loadBuf buf (68 :: joinNumbers [t, adc] ++ [10])) 1 = joinNumbers [t, adc] ++ [10] := by
    rw [cstr_load _ _ _ (by simp)]
    · simp
    · intro b hb
      simp only [List.cons_append, List.drop_succ_cons, List.drop_zero, List.mem_append, List.mem_singleton] at hb
      rcases hb with hb | hb
      · exact (hbytes b hb).1
      · subst hb; decide
  have h0 : (loadBuf buf (68 :: joinNumbers [t, adc] ++ [10])).getD 0 0 = 68 := by
    rw [loadBuf_get _ _ _ (by simp)]; simp
  unfold stepLine
  simp only [h0, hs, sscanf_numbers fmtD [t, adc] (.cons ht (.cons ⟨ha, hw⟩ .nil))]
  rw [if_neg (by decide), if_pos trivial, if_neg (by simp)]
  simp [overlay, fillRow]

/-- **C03.** However its numbers are written, a G line after any complete lines is read exactly. -/
theorem C03_numbers_G (buf0 pre : List Nat) (hpre : EndsLine pre)
    (msPPS msLag yr mo day hr mn sec lat lon : Number)
    (hv : ∀ x ∈ [msPPS, msLag, yr, mo, day, hr, mn, sec, lat, lon], x.Valid) (hw : ∀ x ∈ [yr, mo, day, hr, mn], x.Whole)
    (hlen : (joinNumbers [msPPS, msLag, yr, mo, day, hr, mn, sec, lat, lon]).length ≤ 252) :
    parseGem buf0 (pre ++ (bytes "G," ++ joinNumbers [msPPS, msLag, yr, mo, day, hr, mn, sec, lat, lon] ++ [10]))
      = parseGem buf0 pre ++ [⟨.G, msPPS.val,
          [msLag.val, yr.val, mo.val, day.val, hr.val, mn.val, sec.val, lat.val, lon.val, 0, 0]⟩] := by
  have hfit : List.Forall₂ FitsNumber fmtG [msPPS, msLag, yr, mo, day, hr, mn, sec, lat, lon] := by
    simp only [List.mem_cons, List.not_mem_nil, or_false, forall_eq_or_imp, forall_eq] at hv hw
    obtain ⟨a0, a1, a2, a3, a4, a5, a6, a7, a8, a9⟩ := hv
    obtain ⟨b0, b1, b2, b3, b4⟩ := hw
    exact .cons a0 (.cons a1 (.cons ⟨a2, b0⟩ (.cons ⟨a3, b1⟩ (.cons ⟨a4, b2⟩ (.cons ⟨a5, b3⟩ (.cons ⟨a6, b4⟩
      (.cons a7 (.cons a8 (.cons a9 .nil)))))))))
  have hbytes := joinNumbers_bytes _ hv
  revert hbytes hlen hfit
  generalize hfs : [msPPS, msLag, yr, mo, day, hr, mn, sec, lat, lon] = fs
  intro hlen hfit hbytes
  obtain ⟨st, buf, hst, hp⟩ := parse_append_line buf0 pre (71 :: 44 :: joinNumbers fs) hpre
    (by intro b hb
        simp only [List.mem_cons] at hb
        rcases hb with hb | hb | hb
        · subst hb; decide
        · subst hb; decide
        · exact (hbytes b hb).2)
    (by simp only [List.length_cons]; omega)
  rw [show bytes "G," ++ joinNumbers fs ++ [10] = 71 :: 44 :: joinNumbers fs ++ [10] from rfl, hp]
  congr 1
  have hw := (runChunks_wf (fgetsChunks pre) .init buf0 PState.wf_init)
  rw [← hst] at hw
  rw [step_G (fun b hb => (hbytes b hb).1) (sscanf_numbers _ _ hfit) (by rw [← hfs]; rfl) hw.2.1]
  rw [← hfs]
  rfl

/-- **C03.** However its numbers are written, an M line after any complete lines is read exactly. -/
theorem C03_numbers_M (buf0 pre : List Nat) (hpre : EndsLine pre)
    (ms batt temp a2 a3 maxLag minFree maxUsed maxOver gpsFlag fs1 fsIdle : Number)
    (hv : ∀ x ∈ [ms, batt, temp, a2, a3, maxLag, minFree, maxUsed, maxOver, gpsFlag, fs1, fsIdle], x.Valid)
    (hw : ∀ x ∈ [maxLag, minFree, maxUsed, maxOver, gpsFlag, fs1, fsIdle], x.Whole)
    (hlen : (joinNumbers [ms, batt, temp, a2, a3, maxLag, minFree, maxUsed, maxOver, gpsFlag, fs1, fsIdle]).length ≤ 252) :
    parseGem buf0
        (pre ++ (bytes "M," ++ joinNumbers [ms, batt, temp, a2, a3, maxLag, minFree, maxUsed, maxOver, gpsFlag, fs1, fsIdle] ++ [10]))
      = parseGem buf0 pre ++ [⟨.M, ms.val,
          [batt.val, temp.val, a2.val, a3.val, maxLag.val, minFree.val, maxUsed.val, maxOver.val, gpsFlag.val, fs1.val,
            fsIdle.val]⟩] := by
  have hfit : List.Forall₂ FitsNumber fmtM
      [ms, batt, temp, a2, a3, maxLag, minFree, maxUsed, maxOver, gpsFlag, fs1, fsIdle] := by
    simp only [List.mem_cons, List.not_mem_nil, or_false, forall_eq_or_imp, forall_eq] at hv hw
    obtain ⟨c0, c1, c2, c3, c4, c5, c6, c7, c8, c9, c10, c11⟩ := hv
    obtain ⟨b0, b1, b2, b3, b4, b5, b6⟩ := hw
    exact .cons c0 (.cons c1 (.cons c2 (.cons c3 (.cons c4 (.cons ⟨c5, b0⟩ (.cons ⟨c6, b1⟩ (.cons ⟨c7, b2⟩
      (.cons ⟨c8, b3⟩ (.cons ⟨c9, b4⟩ (.cons ⟨c10, b5⟩ (.cons ⟨c11, b6⟩ .nil)))))))))))
  have hbytes := joinNumbers_bytes _ hv
  revert hbytes hlen hfit
  generalize hfs : [ms, batt, temp, a2, a3, maxLag, minFree, maxUsed, maxOver, gpsFlag, fs1, fsIdle] = fs
  intro hlen hfit hbytes
  obtain ⟨st, buf, hst, hp⟩ := parse_append_line buf0 pre (77 :: 44 :: joinNumbers fs) hpre
    (by intro b hb
        simp only [List.mem_cons] at hb
        rcases hb with hb | hb | hb
        · subst hb; decide
        · subst hb; decide
        · exact (hbytes b hb).2)
    (by simp only [List.length_cons]; omega)
  rw [show bytes "M," ++ joinNumbers fs ++ [10] = 77 :: 44 :: joinNumbers fs ++ [10] from rfl, hp]
  congr 1
  have hw := (runChunks_wf (fgetsChunks pre) .init buf0 PState.wf_init)
  rw [← hst] at hw
  rw [step_M (fun b hb => (hbytes b hb).1) (sscanf_numbers _ _ hfit) (by rw [← hfs]; rfl) hw.2.2]
  rw [← hfs]
  rfl

/-- ` +1.75e1` and `-007`. -/
def writtenTime : Number := ⟨[32], .plus, bytes "1", true, bytes "75", some (false, .none, bytes "1")⟩
def writtenStep : Number := ⟨[], .minus, bytes "007", false, [], .none⟩

theorem writtenTime_valid : writtenTime.Valid :=
  ⟨by decide, by decide +kernel, by decide +kernel, .inl (by decide +kernel), by decide, by
    intro c s d h
    simp only [writtenTime, Option.some.injEq, Prod.mk.injEq] at h
    obtain ⟨_, _, rfl⟩ := h
    decide +kernel⟩

theorem writtenStep_valid : writtenStep.Valid ∧ writtenStep.Whole :=
  ⟨⟨by decide, by decide +kernel, by decide +kernel, .inl (by decide +kernel), by decide, by
    intro c s d h; simp [writtenStep] at h⟩, rfl, rfl⟩

/-- The hypotheses of the theorems hold for the line `D +1.75e1,-007`. -/
example : bytes "D" ++ joinNumbers [writtenTime, writtenStep] ++ [10] = bytes "D +1.75e1,-007\n" ∧
    parseGem [] (bytes "D +1.75e1,-007\n") = [⟨.D, 35 / 2, -7 :: List.replicate 10 0⟩] := by decide +kernel

example : (∀ x ∈ [writtenTime, writtenTime, writtenStep, writtenStep, writtenStep, writtenStep, writtenStep, writtenTime, writtenTime,
      writtenTime], x.Valid) ∧ (∀ x ∈ [writtenStep, writtenStep, writtenStep, writtenStep, writtenStep], x.Whole) ∧
    (joinNumbers [writtenTime, writtenTime, writtenStep, writtenStep, writtenStep, writtenStep, writtenStep, writtenTime, writtenTime,
      writtenTime]).length ≤ 252 := by
  simp only [List.mem_cons, List.not_mem_nil, or_false, forall_eq_or_imp, forall_eq]
  exact ⟨by simp [writtenTime_valid, writtenStep_valid.1], by simp [writtenStep_valid.2], by decide +kernel⟩

end Gemlog
