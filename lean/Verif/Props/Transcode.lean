import Verif.Lemmas.Parser
import Verif.Model.Transcode

/-!
# Property C05: transcoding to the compact format loses nothing
-/

namespace Gemlog

/-- A line of a raw file in the explicit format, after the header line: a sample `D<millis>,<counts>`,
or any other line (GPS, metadata, comment, garbage). -/
inductive SrcLine
  | sample (ms : Nat) (adc : Int)
  | other (body : List Nat)

/-- The bytes of the line. -/
def SrcLine.text : SrcLine → List Nat
  | .sample ms adc => lineD (.ofNat ms) adc
  | .other body => body ++ [10]

/-- Sample times are below the roll-over; other lines fit into the parser's line buffer and do not look
like samples (in the explicit format, only `D` lines are samples). -/
def SrcLine.Valid : SrcLine → Prop
  | .sample ms adc => ms < 8192 ∧ (lineD (.ofNat ms) adc).length ≤ 255
  | .other body => (∀ b ∈ body, b ≠ 10) ∧ body.length ≤ 254 ∧
      ∀ b ∈ body.head?, b ≠ 68 ∧ ¬ (97 ≤ b ∧ b ≤ 122)

/-- A newline-terminated line that fits into the buffer. -/
def IsLine (l : List Nat) : Prop := ∃ body, l = body ++ [10] ∧ (∀ b ∈ body, b ≠ 10) ∧ body.length ≤ 254

theorem fgets_lines : ∀ (ls : List (List Nat)), (∀ l ∈ ls, IsLine l) → fgetsChunks ls.flatten = ls := by
  intro ls
  induction ls with
  | nil => intro _; rfl
  | cons l ls ih =>
    intro h
    obtain ⟨body, rfl, hb, hl⟩ := h l (by simp)
    rw [List.flatten_cons, List.append_assoc, List.singleton_append, fgets_line hb hl,
      ih (fun x hx => h x (by simp [hx]))]

theorem lineD_isLine {ms : Dec} {adc : Int} (h : (lineD ms adc).length ≤ 255) : IsLine (lineD ms adc) := by
  refine ⟨68 :: joinFields [.dec ms, .int adc], rfl, ?_, ?_⟩
  · intro b hb
    rcases List.mem_cons.mp hb with hb | hb
    · subst hb; decide
    · exact (join_bytes _ b hb).2
  · simp only [lineD, List.length_append, List.length_cons, List.length_nil] at *; omega

theorem src_isLine {s : SrcLine} (h : s.Valid) : IsLine s.text := by
  cases s with
  | sample ms adc => exact lineD_isLine h.2
  | other body => exact ⟨body, rfl, h.1, h.2.1⟩

/-- Parser states that agree on everything but the D placeholders. -/
def SameG (a b : PState) : Prop := a.g = b.g ∧ a.m = b.m ∧ a.prev = b.prev

theorem step_lineD (st : PState) (buf : List Nat) (t : Dec) (adc : Int) :
    stepLine st (loadBuf buf (lineD t adc))
      = (some ⟨.D, t.val, fillRow [(adc : Rat)]⟩,
         { d := [t.val, (adc : Rat)] ++ st.d.drop 2, g := st.g, m := st.m, prev := t.val }) := by
  have hbytes := join_bytes [.dec t, .int adc]
  have hs : cstr (loadBuf buf (lineD t adc)) 1 = joinFields [.dec t, .int adc] ++ [10] := by
    unfold lineD
    rw [cstr_load _ _ _ (by simp)]
    · simp
    · intro b hb
      simp only [List.cons_append, List.drop_succ_cons, List.drop_zero, List.mem_append,
        List.mem_singleton] at hb
      rcases hb with hb | hb
      · exact (hbytes b hb).1
      · subst hb; decide
  have h0 : (loadBuf buf (lineD t adc)).getD 0 0 = 68 := by
    unfold lineD
    rw [loadBuf_get _ _ _ (by simp)]; simp
  unfold stepLine
  simp only [h0, hs, sscanf_join fmtD [.dec t, .int adc] (fits_D t adc)]
  rw [if_neg (by decide), if_pos trivial, if_neg (by simp)]
  simp [overlay, Field.val]

theorem step_compact (st : PState) (buf : List Nat) (x y : Nat) (hx : 97 ≤ x ∧ x ≤ 122)
    (hy : 97 ≤ y ∧ y ≤ 122) :
    stepLine st (loadBuf buf [x, y, 10])
      = (some ⟨.D, pyMod (st.prev + 10 + x - 109) (2 ^ 13), fillRow [(y : Rat) - 109]⟩,
         { st with prev := pyMod (st.prev + 10 + x - 109) (2 ^ 13) }) := by
  have h0 : (loadBuf buf [x, y, 10]).getD 0 0 = x := by
    rw [loadBuf_get _ _ _ (by simp)]; simp
  have h1 : (loadBuf buf [x, y, 10]).getD 1 0 = y := by
    rw [loadBuf_get _ _ _ (by simp)]; simp
  unfold stepLine
  simp only [h0, h1]
  rw [if_pos hx, if_neg (by omega)]

theorem cstr_load' (buf chunk : List Nat) (k : Nat) (h : k ≤ chunk.length) :
    cstr (loadBuf buf chunk) k = (chunk.drop k).takeWhile (· ≠ 0) := by
  unfold cstr loadBuf
  rw [List.drop_append_of_le_length h]
  generalize chunk.drop k = l
  induction l with
  | nil => simp
  | cons b l ih =>
    rw [List.cons_append, List.takeWhile_cons, List.takeWhile_cons, ih]

/-- A line that is not a sample is treated alike in states that agree up to the D placeholders. -/
theorem step_other {s1 s2 : PState} (b1 b2 body : List Nat) (h : SameG s1 s2)
    (hb : ∀ b ∈ body.head?, b ≠ 68 ∧ ¬ (97 ≤ b ∧ b ≤ 122)) :
    (stepLine s1 (loadBuf b1 (body ++ [10]))).1 = (stepLine s2 (loadBuf b2 (body ++ [10]))).1 ∧
    SameG (stepLine s1 (loadBuf b1 (body ++ [10]))).2 (stepLine s2 (loadBuf b2 (body ++ [10]))).2 ∧
    (stepLine s1 (loadBuf b1 (body ++ [10]))).2.prev = s1.prev := by
  obtain ⟨hg, hm, hp⟩ := h
  cases body with
  | nil =>
    have e : ∀ b, (loadBuf b ([] ++ [10])).getD 0 0 = 10 := by
      intro b; rw [loadBuf_get _ _ _ (by simp)]; simp
    unfold stepLine
    simp only [e]
    refine ⟨rfl, ⟨hg, hm, hp⟩, rfl⟩
  | cons x l =>
    have hx := hb x (by simp)
    have e : ∀ b, (loadBuf b (x :: l ++ [10])).getD 0 0 = x := by
      intro b; rw [loadBuf_get _ _ _ (by simp)]; simp
    have ec : ∀ b, cstr (loadBuf b (x :: l ++ [10])) 2
        = ((x :: l ++ [10]).drop 2).takeWhile (· ≠ 0) := by
      intro b; exact cstr_load' _ _ _ (by simp)
    unfold stepLine
    simp only [e, ec]
    rw [if_neg hx.2, if_neg hx.2, if_neg hx.1, if_neg hx.1]
    split_ifs
    · exact ⟨by rw [hg], ⟨by rw [hg], hm, hp⟩, rfl⟩
    · exact ⟨by rw [hm], ⟨hg, by rw [hm], hp⟩, rfl⟩
    · exact ⟨rfl, ⟨hg, hm, hp⟩, rfl⟩

theorem split_lineD (ms : Nat) (adc : Int) :
    splitComma (lineD (.ofNat ms) adc) = [68 :: natStr ms, intStr adc ++ [10]] := by
  have e : lineD (.ofNat ms) adc = (68 :: natStr ms) ++ 44 :: (intStr adc ++ [10]) := by
    simp [lineD, joinFields, Field.text, Dec.text, Dec.ofNat]
  rw [e]
  unfold splitComma
  rw [splitCommaGo_comma]
  · rw [splitCommaGo_plain]
    · simp
    · intro b hb
      rcases List.mem_append.mp hb with hb | hb
      · exact intStr_noComma adc b hb
      · simp at hb; omega
  · intro b hb
    rcases List.mem_cons.mp hb with hb | hb
    · omega
    · exact natStr_noComma ms b hb

theorem transcode_sample (i : Nat) (prev : Int) (ms : Nat) (adc : Int) :
    transcodeLine i prev (lineD (.ofNat ms) adc) =
      (if adc.natAbs ≤ 12 ∧ ((ms - prev) % 8192 - 10).natAbs ≤ 12 ∧ i > 0 then
        some ([[(((ms : Int) - prev) % 8192 - 10 + 109).toNat, (adc + 109).toNat, 10]], (ms : Int))
      else some ([lineD (.ofNat ms) adc], (ms : Int))) := by
  unfold transcodeLine
  rw [if_pos (by simp [lineD])]
  simp only [split_lineD]
  have h1 : pyInt (intStr adc ++ [10]) = some adc :=
    pyInt_intStr adc [10] (by intro b hb; simp at hb; subst hb; rfl)
  have h2 : pyInt (natStr ms) = some (ms : Int) := by
    have := pyInt_intStr (ms : Int) [] (by simp)
    unfold intStr at this
    rw [if_neg (by omega)] at this
    simpa using this
  simp [h1, h2]

/-- The parser cannot tell the transcoded lines from the original ones (any start state). -/
theorem transcode_sim : ∀ (src : List SrcLine), (∀ s ∈ src, s.Valid) →
    ∀ (i : Nat) (prev : Int) (s1 s2 : PState) (b1 b2 : List Nat), i > 0 → SameG s1 s2 →
    s1.prev = (prev : Rat) →
    ∃ ws, transcodeGo i prev (src.map SrcLine.text) = some ws ∧ (∀ w ∈ ws, IsLine w) ∧
      parseChunks s2 b2 ws = parseChunks s1 b1 (src.map SrcLine.text) := by
  intro src
  induction src with
  | nil => intro _ i prev s1 s2 b1 b2 _ _ _; exact ⟨[], rfl, by simp, rfl⟩
  | cons s src ih =>
    intro hv i prev s1 s2 b1 b2 hi hsame hprev
    have hvs := hv s (by simp)
    have hvr : ∀ s ∈ src, s.Valid := fun x hx => hv x (by simp [hx])
    cases s with
    | sample ms adc =>
      have hval : (Dec.ofNat ms).val = (ms : Rat) := by simp [Dec.val, Dec.ofNat, digitsVal]
      simp only [List.map_cons, SrcLine.text, transcodeGo, transcode_sample]
      split_ifs with hc
      · -- compact line
        obtain ⟨hp, hd, _⟩ := hc
        have hm0 : 0 ≤ ((ms : Int) - prev) % 8192 := Int.emod_nonneg _ (by decide)
        have hm1 : ((ms : Int) - prev) % 8192 < 8192 := Int.emod_lt_of_pos _ (by decide)
        set x := (((ms : Int) - prev) % 8192 - 10 + 109).toNat with hx
        set y := (adc + 109).toNat with hy
        have hxb : 97 ≤ x ∧ x ≤ 122 := by omega
        have hyb : 97 ≤ y ∧ y ≤ 122 := by omega
        have hR : (0 : Rat) < 2 ^ 13 := by norm_num
        have ht : pyMod (s2.prev + 10 + x - 109) (2 ^ 13) = (ms : Rat) := by
          have hxi : (x : Int) = ((ms : Int) - prev) % 8192 - 10 + 109 := by omega
          have hdiv := Int.emod_add_mul_ediv ((ms : Int) - prev) 8192
          refine pyMod_eq (k := -(((ms : Int) - prev) / 8192)) hR ?_ (by positivity) ?_
          · have : (x : Rat) = ((((ms : Int) - prev) % 8192 : Int) : Rat) - 10 + 109 := by
              have := congrArg (fun z : Int => (z : Rat)) hxi
              push_cast at this; exact this
            have hd2 := congrArg (fun z : Int => (z : Rat)) hdiv
            push_cast at hd2
            rw [← hsame.2.2, hprev, this]
            push_cast
            norm_num
            linarith
          · have : (ms : Rat) < 8192 := by exact_mod_cast hvs.1
            norm_num; exact hvs.1
        obtain ⟨ws, h1, h2, h3⟩ := ih hvr (i + 1) (ms : Int)
          { d := [(Dec.ofNat ms).val, (adc : Rat)] ++ s1.d.drop 2, g := s1.g, m := s1.m,
            prev := (Dec.ofNat ms).val }
          { s2 with prev := pyMod (s2.prev + 10 + x - 109) (2 ^ 13) }
          (loadBuf b1 (lineD (.ofNat ms) adc)) (loadBuf b2 [x, y, 10]) (by omega)
          ⟨hsame.1, hsame.2.1, by simp only; rw [ht, hval]⟩ (by simp only; rw [hval]; norm_cast)
        refine ⟨[x, y, 10] :: ws, by simp only; rw [h1]; rfl, ?_, ?_⟩
        · intro w hw
          rcases List.mem_cons.mp hw with hw | hw
          · subst hw
            exact ⟨[x, y], rfl, by intro b hb; simp at hb; omega, by simp⟩
          · exact h2 w hw
        · rw [parseChunks_cons, parseChunks_cons, step_compact _ _ _ _ hxb hyb, step_lineD]
          simp only
          rw [h3, ht, hval]
          have : ((y : Nat) : Rat) - 109 = (adc : Rat) := by
            have : (y : Int) = adc + 109 := by omega
            have := congrArg (fun z : Int => (z : Rat)) this
            push_cast at this
            rw [this]; ring
          rw [this]
      · obtain ⟨ws, h1, h2, h3⟩ := ih hvr (i + 1) (ms : Int)
          { d := [(Dec.ofNat ms).val, (adc : Rat)] ++ s1.d.drop 2, g := s1.g, m := s1.m,
            prev := (Dec.ofNat ms).val }
          { d := [(Dec.ofNat ms).val, (adc : Rat)] ++ s2.d.drop 2, g := s2.g, m := s2.m,
            prev := (Dec.ofNat ms).val }
          (loadBuf b1 (lineD (.ofNat ms) adc)) (loadBuf b2 (lineD (.ofNat ms) adc)) (by omega)
          ⟨hsame.1, hsame.2.1, rfl⟩ (by simp only; rw [hval]; norm_cast)
        refine ⟨lineD (.ofNat ms) adc :: ws, by simp only; rw [h1]; rfl, ?_, ?_⟩
        · intro w hw
          rcases List.mem_cons.mp hw with hw | hw
          · subst hw; exact lineD_isLine hvs.2
          · exact h2 w hw
        · rw [parseChunks_cons, parseChunks_cons, step_lineD, step_lineD]
          simp only
          rw [h3]
    | other body =>
      have ho := step_other b1 b2 body hsame hvs.2.2
      have hnD : ¬ (body ++ [10]).head? = some 68 := by
        cases body with
        | nil => simp
        | cons x l => simpa using (hvs.2.2 x (by simp)).1
      have ht : transcodeLine i prev (body ++ [10]) = some ([body ++ [10]], prev) := by
        unfold transcodeLine
        rw [if_neg hnD, if_neg (by omega)]
      obtain ⟨ws, h1, h2, h3⟩ := ih hvr (i + 1) prev _ _ (loadBuf b1 (body ++ [10]))
        (loadBuf b2 (body ++ [10])) (by omega) ho.2.1 (by rw [ho.2.2, hprev])
      refine ⟨(body ++ [10]) :: ws, ?_, ?_, ?_⟩
      · simp only [List.map_cons, SrcLine.text, transcodeGo, ht]
        rw [h1]; rfl
      · intro w hw
        rcases List.mem_cons.mp hw with hw | hw
        · subst hw; exact ⟨body, rfl, hvs.1, hvs.2.1⟩
        · exact h2 w hw
      · rw [List.map_cons, parseChunks_cons, parseChunks_cons, h3]
        simp only [SrcLine.text]
        rw [ho.1]

/-- **C05.** A raw file with header `#GemCSV...` and any valid lines is transcoded without error, and
parsing the compact file gives exactly the rows of the original: same samples, times, GPS and metadata,
in the same order. The uninitialised parser buffers may differ. -/
theorem C05_transcoded_file_same_rows (version : String) (hver : version ∈ ["0.85C", "0.9", "0.91"])
    (rest : List Nat) (hrest : ∀ b ∈ rest, b ≠ 10) (hlen : rest.length ≤ 240)
    (src : List SrcLine) (hsrc : ∀ s ∈ src, s.Valid) (buf1 buf2 : List Nat) :
    ∃ out, transcode version ((bytes "#GemCSV" ++ rest ++ [10]) :: src.map SrcLine.text) = some out ∧
      parseGem buf2 out
        = parseGem buf1 (bytes "#GemCSV" ++ rest ++ [10] ++ (src.map SrcLine.text).flatten) := by
  have hb7 : bytes "#GemCSV" = [35, 71, 101, 109, 67, 83, 86] := by decide +kernel
  have hh1 : bytes "#GemCSV1.1\n" = [35, 71, 101, 109, 67, 83, 86, 49, 46, 49] ++ [10] := by
    decide +kernel
  have hh2 : bytes "#adcMSSAMP\n" = [35, 97, 100, 99, 77, 83, 83, 65, 77, 80] ++ [10] := by
    decide +kernel
  have hskip : ∀ (st : PState) (buf l : List Nat), stepLine st (loadBuf buf (35 :: l)) = (none, st) := by
    intro st buf l
    have h0 : (loadBuf buf (35 :: l)).getD 0 0 = 35 := by
      rw [loadBuf_get _ _ _ (by simp)]; simp
    unfold stepLine
    simp only [h0]
    rfl
  have hhead : transcodeLine 0 0 (bytes "#GemCSV" ++ rest ++ [10])
      = some ([bytes "#GemCSV1.1\n", bytes "#adcMSSAMP\n"], 0) := by
    unfold transcodeLine
    rw [hb7, if_neg (by simp), if_pos rfl, if_pos (by simp)]
  obtain ⟨ws, h1, h2, h3⟩ := transcode_sim src hsrc 1 0 .init .init
    (loadBuf buf1 (bytes "#GemCSV" ++ rest ++ [10]))
    (loadBuf (loadBuf buf2 (bytes "#GemCSV1.1\n")) (bytes "#adcMSSAMP\n")) (by omega)
    ⟨rfl, rfl, rfl⟩ rfl
  refine ⟨(bytes "#GemCSV1.1\n" :: bytes "#adcMSSAMP\n" :: ws).flatten, ?_, ?_⟩
  · unfold transcode
    rw [if_pos hver, transcodeGo, hhead]
    simp only
    rw [h1]; rfl
  · have hl1 : fgetsChunks (bytes "#GemCSV1.1\n" :: bytes "#adcMSSAMP\n" :: ws).flatten
        = bytes "#GemCSV1.1\n" :: bytes "#adcMSSAMP\n" :: ws := by
      apply fgets_lines
      intro l hl
      rcases List.mem_cons.mp hl with hl | hl
      · subst hl; exact ⟨_, hh1, by decide, by decide⟩
      · rcases List.mem_cons.mp hl with hl | hl
        · subst hl; exact ⟨_, hh2, by decide, by decide⟩
        · exact h2 l hl
    have hl2 : fgetsChunks (bytes "#GemCSV" ++ rest ++ [10] ++ (src.map SrcLine.text).flatten)
        = (bytes "#GemCSV" ++ rest ++ [10]) :: src.map SrcLine.text := by
      rw [show bytes "#GemCSV" ++ rest ++ [10] ++ (src.map SrcLine.text).flatten
        = ((bytes "#GemCSV" ++ rest ++ [10]) :: src.map SrcLine.text).flatten from by simp]
      apply fgets_lines
      intro l hl
      rcases List.mem_cons.mp hl with hl | hl
      · subst hl
        refine ⟨bytes "#GemCSV" ++ rest, rfl, ?_, ?_⟩
        · intro b hb
          rcases List.mem_append.mp hb with hb | hb
          · rw [hb7] at hb
            have key : ∀ b ∈ [35, 71, 101, 109, 67, 83, 86], b ≠ 10 := by decide
            exact key b hb
          · exact hrest b hb
        · rw [hb7]; simp; omega
      · obtain ⟨s, hs, rfl⟩ := List.mem_map.mp hl
        exact src_isLine (hsrc s hs)
    unfold parseGem
    rw [hl1, hl2, parseChunks_cons, parseChunks_cons, parseChunks_cons]
    have e1 : ∀ (st : PState) (buf : List Nat), stepLine st (loadBuf buf (bytes "#GemCSV1.1\n")) = (none, st) := by
      intro st buf; rw [hh1]; exact hskip st buf _
    have e2 : ∀ (st : PState) (buf : List Nat), stepLine st (loadBuf buf (bytes "#adcMSSAMP\n")) = (none, st) := by
      intro st buf; rw [hh2]; exact hskip st buf _
    have e3 : ∀ (st : PState) (buf : List Nat),
        stepLine st (loadBuf buf (bytes "#GemCSV" ++ rest ++ [10])) = (none, st) := by
      intro st buf; rw [hb7]; exact hskip st buf _
    rw [e1, e2, e3]
    simp only [Option.toList, List.nil_append]
    exact h3

/-- A concrete file meeting the hypotheses, with a jump, a roll-over, a large step and a damaged line. -/
example : (∀ s ∈ [SrcLine.sample 8185 3, .other (bytes "G,8171,70"), .sample 3 (-12), .sample 500 1,
      .sample 510 13, .sample 520 0], s.Valid) ∧
    transcode "0.91" (bytes "#GemCSV0.91\n" :: [SrcLine.sample 8185 3, .other (bytes "G,8171,70"),
      .sample 3 (-12), .sample 500 1, .sample 510 13, .sample 520 0].map SrcLine.text)
      = some (bytes "#GemCSV1.1\n#adcMSSAMP\nD8185,3\nG,8171,70\nma\nD500,1\nD510,13\nmm\n") := by
  constructor
  · intro s hs
    simp only [List.mem_cons, List.not_mem_nil, or_false] at hs
    rcases hs with h | h | h | h | h | h <;> subst h <;> simp only [SrcLine.Valid] <;> decide +kernel
  · decide +kernel

/-- **C05.** Samples in the compact range take three bytes. -/
theorem C05_compact_size (i : Nat) (hi : 0 < i) (prev ms : Nat) (adc : Int) (hadc : -12 ≤ adc ∧ adc ≤ 12)
    (hd : ∃ k : Int, 0 ≤ (ms : Int) - prev + k * 8192 ∧ (ms : Int) - prev + k * 8192 ≤ 22) :
    ∃ a b, transcodeLine i prev (lineD (.ofNat ms) adc) = some ([[a, b, 10]], (ms : Int)) := by
  obtain ⟨k, h0, h1⟩ := hd
  have : ((ms : Int) - prev) % 8192 = (ms : Int) - prev + k * 8192 := by
    rw [← Int.add_mul_emod_self_right _ k 8192]
    exact Int.emod_eq_of_lt h0 (by omega)
  have h := transcode_sample i prev ms adc
  rw [if_pos (by rw [this]; omega)] at h
  exact ⟨_, _, h⟩

end Gemlog
