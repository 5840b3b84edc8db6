import Verif.Lemmas.Parser

/-!
# Properties C01-C04: the raw-file parser
-/

namespace Gemlog

/-! ## C01 -/

/-- The type of row a line stands for, by its first byte: `D`, `G`, `M`, or a lower-case letter
(a sample); any other line carries no data. -/
def lineKind : List Nat → Option Kind
  | [] => none
  | b :: _ =>
    if b = 68 ∨ (97 ≤ b ∧ b ≤ 122) then some .D
    else if b = 71 then some .G
    else if b = 77 then some .M
    else none

/-- What it means to cut a file into lines of at most 255 bytes: the pieces make up the file, none is
empty, a newline occurs only at the end of a piece, and a piece that does not end with a newline is
255 bytes long or the last one. -/
structure CutIntoLines (content : List Nat) (pieces : List (List Nat)) : Prop where
  concat : pieces.flatten = content
  nonempty : ∀ p ∈ pieces, p ≠ []
  short : ∀ p ∈ pieces, p.length ≤ 255
  newlineLast : ∀ p ∈ pieces, ∀ b ∈ p.dropLast, b ≠ 10
  full : ∀ p ∈ pieces.dropLast, p.getLast? = some 10 ∨ p.length = 255

theorem chunkGo_cut : ∀ (content cur : List Nat), (∀ b ∈ cur, b ≠ 10) → cur.length ≤ 254 →
    (chunkGo cur content).flatten = cur ++ content ∧
    (∀ p ∈ chunkGo cur content, p ≠ []) ∧
    (∀ p ∈ chunkGo cur content, p.length ≤ 255) ∧
    (∀ p ∈ chunkGo cur content, ∀ b ∈ p.dropLast, b ≠ 10) ∧
    (∀ p ∈ (chunkGo cur content).dropLast, p.getLast? = some 10 ∨ p.length = 255) := by
  intro content
  induction content with
  | nil =>
    intro cur h1 h2
    unfold chunkGo
    split_ifs with h
    · simp [h]
    · refine ⟨by simp, by simp [h], by simp; omega, ?_, by simp⟩
      intro p hp b hb
      simp at hp; subst hp
      exact h1 b (List.mem_of_mem_dropLast hb)
  | cons b content ih =>
    intro cur h1 h2
    unfold chunkGo
    split_ifs with h
    · obtain ⟨a1, a2, a3, a4, a5⟩ := ih [] (by simp) (by simp)
      refine ⟨by simp [a1], ?_, ?_, ?_, ?_⟩
      · intro p hp
        rcases List.mem_cons.mp hp with hp | hp
        · subst hp; simp
        · exact a2 p hp
      · intro p hp
        rcases List.mem_cons.mp hp with hp | hp
        · subst hp; simp; omega
        · exact a3 p hp
      · intro p hp x hx
        rcases List.mem_cons.mp hp with hp | hp
        · subst hp; simp at hx; exact h1 x hx
        · exact a4 p hp x hx
      · intro p hp
        by_cases hc : chunkGo [] content = []
        · rw [hc] at hp; simp at hp
        · rw [List.dropLast_cons_of_ne_nil hc] at hp
          rcases List.mem_cons.mp hp with hp | hp
          · subst hp
            rcases h with h | h
            · left; simp [h]
            · right; simp [h]
          · exact a5 p hp
    · push Not at h
      obtain ⟨a1, a2, a3, a4, a5⟩ := ih (cur ++ [b])
        (by intro x hx; rcases List.mem_append.mp hx with hx | hx
            · exact h1 x hx
            · simp at hx; subst hx; exact h.1)
        (by simp; omega)
      exact ⟨by rw [a1]; simp, a2, a3, a4, a5⟩

theorem stepLine_kind (st : PState) (buf c : List Nat) (hc : c ≠ []) :
    (stepLine st (loadBuf buf c)).1.map Row.kind = lineKind c := by
  obtain ⟨b, l, rfl⟩ := List.exists_cons_of_ne_nil hc
  have h0 : (loadBuf buf (b :: l)).getD 0 0 = b := by
    rw [loadBuf_get _ _ _ (by simp)]; simp
  unfold stepLine
  simp only [h0, lineKind]
  split_ifs <;> first | rfl | omega

/-- **C01.** For every file content there is a unique-by-construction cut into lines (of at most 255
bytes) such that the parser returns one row per line starting with `D`, `G`, `M` or a lower-case
letter, in file order and with the corresponding type, and nothing for other lines. -/
theorem C01_rows_are_data_lines (buf0 content : List Nat) :
    ∃ pieces, CutIntoLines content pieces ∧
      (parseGem buf0 content).map Row.kind = pieces.filterMap lineKind := by
  have hcut := chunkGo_cut content [] (by simp) (by simp)
  obtain ⟨a1, a2, a3, a4, a5⟩ := hcut
  refine ⟨fgetsChunks content, ⟨by simpa [fgetsChunks] using a1, a2, a3, a4, a5⟩, ?_⟩
  have key : ∀ (cs : List (List Nat)) (st : PState) (buf : List Nat), (∀ c ∈ cs, c ≠ []) →
      (parseChunks st buf cs).map Row.kind = cs.filterMap lineKind := by
    intro cs
    induction cs with
    | nil => intros; rfl
    | cons c cs ih =>
      intro st buf h
      rw [parseChunks_cons, List.map_append, ih _ _ (fun x hx => h x (by simp [hx])),
        List.filterMap_cons]
      have hk := stepLine_kind st buf c (h c (by simp))
      cases hs : (stepLine st (loadBuf buf c)).1 with
      | none => rw [hs] at hk; simp at hk; rw [← hk]; rfl
      | some r => rw [hs] at hk; simp at hk; rw [← hk]; rfl
  exact key _ _ _ a2

/-- The cut is determined by the content, so the statement above is about *the* lines of the file. -/
theorem C01_cut_unique (content : List Nat) : ∀ (p q : List (List Nat)),
    CutIntoLines content p → CutIntoLines content q → p = q := by
  have key : ∀ (n : Nat) (content : List Nat), content.length ≤ n → ∀ (p q : List (List Nat)),
    CutIntoLines content p → CutIntoLines content q → p = q := by
    intro n
    induction n with
    | zero =>
      intro content hn p q hp hq
      have : content = [] := by simpa using hn
      subst this
      have e : ∀ (p : List (List Nat)), CutIntoLines [] p → p = [] := by
        intro p hp
        cases p with
        | nil => rfl
        | cons a p =>
          have h1 := hp.concat
          simp at h1
          exact absurd h1.1 (hp.nonempty a (by simp))
      rw [e p hp, e q hq]
    | succ n ih =>
      intro content hn p q hp hq
      cases p with
      | nil =>
        cases q with
        | nil => rfl
        | cons b q =>
          have h1 := hp.concat
          have h2 := hq.concat
          simp at h1
          rw [h1] at h2; simp at h2
          exact absurd h2.1 (hq.nonempty b (by simp))
      | cons a p =>
        cases q with
        | nil =>
          have h1 := hp.concat
          have h2 := hq.concat
          simp at h2
          rw [h2] at h1; simp at h1
          exact absurd h1.1 (hp.nonempty a (by simp))
        | cons b q =>
          have h1 : a ++ p.flatten = content := by simpa using hp.concat
          have h2 : b ++ q.flatten = content := by simpa using hq.concat
          -- a piece cannot be a proper prefix of the other
          have aux : ∀ (a b : List Nat) (p q : List (List Nat)) (content : List Nat),
              CutIntoLines content (a :: p) → CutIntoLines content (b :: q) →
              a ++ p.flatten = content → b ++ q.flatten = content → ¬ a.length < b.length := by
            intro a b p q content hp hq h1 h2 hlt
            have hpre : ∃ r, b = a ++ r ∧ r ≠ [] := by
              refine ⟨b.drop a.length, ?_, ?_⟩
              · have : a = b.take a.length := by
                  have e1 : a = content.take a.length := by rw [← h1]; simp
                  have e2 : b.take a.length = content.take a.length := by
                    rw [← h2]; rw [List.take_append_of_le_length hlt.le]
                  rw [e2, ← e1]
                conv_lhs => rw [← List.take_append_drop a.length b, ← this]
              · intro h
                have := congrArg List.length h
                simp at this; omega
            obtain ⟨r, hr, hrne⟩ := hpre
            -- `a` is not the last piece
            have hpne : p ≠ [] := by
              intro h
              subst h
              simp at h1
              have := congrArg List.length h2
              simp at this
              rw [h1] at hlt; omega
            have hfull := hp.full a (by rw [List.dropLast_cons_of_ne_nil hpne]; simp)
            rcases hfull with hf | hf
            · have hane := hp.nonempty a (by simp)
              have hmem : (10 : Nat) ∈ b.dropLast := by
                rw [hr, List.dropLast_append_of_ne_nil hrne]
                exact List.mem_append_left _ (List.mem_of_getLast? hf)
              exact hq.newlineLast b (by simp) 10 hmem rfl
            · have := hq.short b (by simp)
              omega
          have hlen : a.length = b.length := by
            have := aux a b p q content hp hq h1 h2
            have := aux b a q p content hq hp h2 h1
            omega
          have hab : a = b ∧ p.flatten = q.flatten :=
            List.append_inj (h1.trans h2.symm) hlen
          obtain ⟨rfl, hflat⟩ := hab
          have hane := hp.nonempty a (by simp)
          have hsub : ∀ (p : List (List Nat)), CutIntoLines content (a :: p) →
              CutIntoLines p.flatten p := by
            intro p hp
            refine ⟨rfl, fun x hx => hp.nonempty x (by simp [hx]),
              fun x hx => hp.short x (by simp [hx]), fun x hx => hp.newlineLast x (by simp [hx]), ?_⟩
            intro x hx
            apply hp.full x
            cases p with
            | nil => simp at hx
            | cons c p => rw [List.dropLast_cons_of_ne_nil (by simp)]; simp [hx]
          have hshort : p.flatten.length ≤ n := by
            have := congrArg List.length h1
            have : 0 < a.length := List.length_pos_iff.mpr hane
            simp at *; omega
          rw [ih p.flatten hshort p q (hsub p hp) (by rw [hflat]; exact hsub q hq)]
  intro p q hp hq
  exact key content.length content le_rfl p q hp hq

example : (parseGem (List.replicate 256 7) (bytes "#GemCSV0.91\nD2067,0\nmt\nR,1\nM,5,1\nG,6,2")).map
    Row.kind = [.D, .D, .M, .G] := by decide +kernel

/-! ## C02 -/

/-- The time of the last sample among some rows, 0 if there is none. -/
def lastSampleTime (rows : List Row) : Rat :=
  match (rows.filter (fun r => r.kind == .D)).getLast? with
  | none => 0
  | some r => r.millis

theorem lastSampleD_eq (rows : List Row) : lastSampleD 0 rows = lastSampleTime rows := by
  have key : ∀ (rows : List Row) (x : Rat), lastSampleD x rows =
      match (rows.filter (fun r => r.kind == .D)).getLast? with
      | none => x
      | some r => r.millis := by
    intro rows
    induction rows with
    | nil => intro x; rfl
    | cons r rows ih =>
      intro x
      rw [lastSampleD, ih]
      by_cases h : r.kind = .D
      · simp only [h, if_true, List.filter_cons, beq_self_eq_true]
        cases hl : (rows.filter (fun r => r.kind == .D)) with
        | nil => simp
        | cons a l => simp [List.getLast?_cons]
      · have : (r.kind == .D) = false := by simpa using h
        simp [h, this]
  exact key rows 0

/-- **C02.** A two-letter line after any complete lines `pre` adds one sample whose pressure step is the
second letter relative to `m` and whose time is the previous sample time plus 10 plus the first letter
relative to `m`, modulo 8192. -/
theorem C02_two_letter_line (buf0 pre : List Nat) (hpre : EndsLine pre) (x y : Nat)
    (hx : 97 ≤ x ∧ x ≤ 122) (hy : 97 ≤ y ∧ y ≤ 122) :
    ∃ t : Rat, parseGem buf0 (pre ++ [x, y, 10])
        = parseGem buf0 pre ++ [⟨.D, t, ((y : Rat) - 109) :: List.replicate 10 0⟩] ∧
      0 ≤ t ∧ t < 8192 ∧
      ∃ k : Int, lastSampleTime (parseGem buf0 pre) + 10 + ((x : Rat) - 109) = t + k * 8192 := by
  obtain ⟨st, buf, hst, hp⟩ := parse_append_line buf0 pre [x, y] hpre
    (by intro b hb; simp at hb; omega) (by simp)
  have hprev : st.prev = lastSampleTime (parseGem buf0 pre) := by
    have := runChunks_prev (fgetsChunks pre) .init buf0
    rw [← hst] at this
    rw [← lastSampleD_eq]; exact this
  have h0 : (loadBuf buf ([x, y] ++ [10])).getD 0 0 = x := by
    rw [loadBuf_get _ _ _ (by simp)]; simp
  have h1 : (loadBuf buf ([x, y] ++ [10])).getD 1 0 = y := by
    rw [loadBuf_get _ _ _ (by simp)]; simp
  have hR : (0 : Rat) < 2 ^ 13 := by norm_num
  refine ⟨pyMod (st.prev + 10 + x - 109) (2 ^ 13), ?_, pyMod_nonneg _ hR, ?_, ?_⟩
  · rw [show pre ++ [x, y, 10] = pre ++ ([x, y] ++ [10]) from rfl, hp]
    congr 1
    unfold stepLine
    simp only [h0, h1]
    rw [if_pos hx, if_neg (by omega)]
    rfl
  · have := pyMod_lt (st.prev + 10 + x - 109) hR
    norm_num at *; exact this
  · obtain ⟨k, hk⟩ := pyMod_spec (st.prev + 10 + x - 109) (2 ^ 13)
    refine ⟨k, ?_⟩
    rw [← hprev]
    norm_num at *
    linarith

/-- **C02.** A line with one lower-case letter, followed by any other byte, adds one sample 10 ms after
the previous one (modulo 8192) with the pressure step given by that letter relative to `m`. -/
theorem C02_one_letter_line (buf0 pre rest : List Nat) (hpre : EndsLine pre) (x : Nat)
    (hx : 97 ≤ x ∧ x ≤ 122) (hrest : ∀ b ∈ rest, b ≠ 10) (hlen : rest.length ≤ 253)
    (hnext : ∀ b ∈ rest.head?, ¬ (97 ≤ b ∧ b ≤ 122)) :
    ∃ t : Rat, parseGem buf0 (pre ++ (x :: rest ++ [10]))
        = parseGem buf0 pre ++ [⟨.D, t, ((x : Rat) - 109) :: List.replicate 10 0⟩] ∧
      0 ≤ t ∧ t < 8192 ∧
      ∃ k : Int, lastSampleTime (parseGem buf0 pre) + 10 = t + k * 8192 := by
  obtain ⟨st, buf, hst, hp⟩ := parse_append_line buf0 pre (x :: rest) hpre
    (by intro b hb; rcases List.mem_cons.mp hb with hb | hb
        · omega
        · exact hrest b hb) (by simp; omega)
  have hprev : st.prev = lastSampleTime (parseGem buf0 pre) := by
    have := runChunks_prev (fgetsChunks pre) .init buf0
    rw [← hst] at this
    rw [← lastSampleD_eq]; exact this
  have h0 : (loadBuf buf (x :: rest ++ [10])).getD 0 0 = x := by
    rw [loadBuf_get _ _ _ (by simp)]; simp
  have h1 : (loadBuf buf (x :: rest ++ [10])).getD 1 0 < 97 ∨
      (loadBuf buf (x :: rest ++ [10])).getD 1 0 > 122 := by
    rw [loadBuf_get _ _ _ (by simp)]
    cases rest with
    | nil => simp
    | cons b r =>
      have := hnext b (by simp)
      simp only [List.cons_append, List.getD_cons_succ, List.getD_cons_zero]
      omega
  have hR : (0 : Rat) < 2 ^ 13 := by norm_num
  refine ⟨pyMod (st.prev + 10) (2 ^ 13), ?_, pyMod_nonneg _ hR, ?_, ?_⟩
  · rw [hp]
    congr 1
    unfold stepLine
    simp only [h0]
    rw [if_pos hx, if_pos h1]
    rfl
  · have := pyMod_lt (st.prev + 10) hR
    norm_num at *; exact this
  · obtain ⟨k, hk⟩ := pyMod_spec (st.prev + 10) (2 ^ 13)
    refine ⟨k, ?_⟩
    rw [← hprev]
    norm_num at *
    linarith

example : parseGem (List.replicate 256 7) (bytes "D8185,0\nma\nzm\nb\n")
    = [⟨.D, 8185, List.replicate 11 0⟩, ⟨.D, 3, -12 :: List.replicate 10 0⟩,
       ⟨.D, 26, List.replicate 11 0⟩, ⟨.D, 36, -11 :: List.replicate 10 0⟩] := by decide +kernel

/-! ## C03 -/

/-- **C03.** A well-formed D line after any complete lines is read back exactly. -/
theorem C03_line_D (buf0 pre : List Nat) (hpre : EndsLine pre) (t : Dec) (adc : Int)
    (hlen : (lineD t adc).length ≤ 255) :
    parseGem buf0 (pre ++ lineD t adc)
      = parseGem buf0 pre ++ [⟨.D, t.val, (adc : Rat) :: List.replicate 10 0⟩] := by
  have hbytes := join_bytes [.dec t, .int adc]
  obtain ⟨st, buf, _, hp⟩ := parse_append_line buf0 pre (68 :: joinFields [.dec t, .int adc]) hpre
    (by intro b hb; rcases List.mem_cons.mp hb with hb | hb
        · subst hb; decide
        · exact (hbytes b hb).2)
    (by simp only [lineD, List.length_append, List.length_cons, List.length_nil] at *; omega)
  unfold lineD
  rw [hp]
  congr 1
  have hs : cstr (loadBuf buf (68 :: joinFields [.dec t, .int adc] ++ [10])) 1
      = joinFields [.dec t, .int adc] ++ [10] := by
    rw [cstr_load _ _ _ (by simp)]
    · simp
    · intro b hb
      simp only [List.cons_append, List.drop_succ_cons, List.drop_zero, List.mem_append,
        List.mem_singleton] at hb
      rcases hb with hb | hb
      · exact (hbytes b hb).1
      · subst hb; decide
  have h0 : (loadBuf buf (68 :: joinFields [.dec t, .int adc] ++ [10])).getD 0 0 = 68 := by
    rw [loadBuf_get _ _ _ (by simp)]; simp
  unfold stepLine
  simp only [h0, hs, sscanf_join fmtD [.dec t, .int adc] (fits_D t adc)]
  rw [if_neg (by decide), if_pos trivial, if_neg (by simp)]
  simp [overlay, Field.val, fillRow]

theorem step_G {st : PState} {buf body : List Nat} {vals : List Rat}
    (hb : ∀ b ∈ body, b ≠ 0) (hv : sscanf fmtG (body ++ [10]) = vals) (hl : vals.length = 10)
    (hst : st.g.length = 10) :
    (stepLine st (loadBuf buf (71 :: 44 :: body ++ [10]))).1
      = some ⟨.G, vals.getD 0 0, vals.tail ++ [0, 0]⟩ := by
  have hs : cstr (loadBuf buf (71 :: 44 :: body ++ [10])) 2 = body ++ [10] := by
    rw [cstr_load _ _ _ (by simp)]
    · simp
    · intro b hb'
      simp only [List.cons_append, List.drop_succ_cons, List.drop_zero, List.mem_append,
        List.mem_singleton] at hb'
      rcases hb' with hb' | hb'
      · exact hb b hb'
      · subst hb'; decide
  have h0 : (loadBuf buf (71 :: 44 :: body ++ [10])).getD 0 0 = 71 := by
    rw [loadBuf_get _ _ _ (by simp)]; simp
  unfold stepLine
  simp only [h0, hs, hv]
  rw [if_neg (by decide), if_neg (by decide), if_pos trivial]
  have : overlay vals st.g = vals := by
    unfold overlay; rw [hl, List.drop_of_length_le (by omega)]; simp
  simp [this, fillRow, hl]

theorem step_M {st : PState} {buf body : List Nat} {vals : List Rat}
    (hb : ∀ b ∈ body, b ≠ 0) (hv : sscanf fmtM (body ++ [10]) = vals) (hl : vals.length = 12)
    (hst : st.m.length = 12) :
    (stepLine st (loadBuf buf (77 :: 44 :: body ++ [10]))).1
      = some ⟨.M, vals.getD 0 0, vals.tail⟩ := by
  have hs : cstr (loadBuf buf (77 :: 44 :: body ++ [10])) 2 = body ++ [10] := by
    rw [cstr_load _ _ _ (by simp)]
    · simp
    · intro b hb'
      simp only [List.cons_append, List.drop_succ_cons, List.drop_zero, List.mem_append,
        List.mem_singleton] at hb'
      rcases hb' with hb' | hb'
      · exact hb b hb'
      · subst hb'; decide
  have h0 : (loadBuf buf (77 :: 44 :: body ++ [10])).getD 0 0 = 77 := by
    rw [loadBuf_get _ _ _ (by simp)]; simp
  unfold stepLine
  simp only [h0, hs, hv]
  rw [if_neg (by decide), if_neg (by decide), if_neg (by decide), if_pos trivial]
  have : overlay vals st.m = vals := by
    unfold overlay; rw [hl, List.drop_of_length_le (by omega)]; simp
  simp [this, fillRow, hl]

/-- **C03.** A well-formed G line after any complete lines is read back exactly. -/
theorem C03_line_G (buf0 pre : List Nat) (hpre : EndsLine pre) (msPPS msLag : Dec)
    (yr mo day hr mn : Int) (sec lat lon : Dec)
    (hlen : (lineG msPPS msLag yr mo day hr mn sec lat lon).length ≤ 255) :
    parseGem buf0 (pre ++ lineG msPPS msLag yr mo day hr mn sec lat lon)
      = parseGem buf0 pre ++ [⟨.G, msPPS.val,
          [msLag.val, yr, mo, day, hr, mn, sec.val, lat.val, lon.val, 0, 0]⟩] := by
  have hbytes := join_bytes [.dec msPPS, .dec msLag, .int yr, .int mo, .int day, .int hr, .int mn,
    .dec sec, .dec lat, .dec lon]
  unfold lineG at *
  revert hbytes hlen
  generalize hfs : [Field.dec msPPS, .dec msLag, .int yr, .int mo, .int day, .int hr, .int mn,
    .dec sec, .dec lat, .dec lon] = fs
  intro hlen hbytes
  obtain ⟨st, buf, hst, hp⟩ := parse_append_line buf0 pre (71 :: 44 :: joinFields fs) hpre
    (by intro b hb
        simp only [List.mem_cons] at hb
        rcases hb with hb | hb | hb
        · subst hb; decide
        · subst hb; decide
        · exact (hbytes b hb).2)
    (by simp only [List.length_append, List.length_cons, List.length_nil] at *; omega)
  have hfit : List.Forall₂ Fits fmtG fs := by
    subst hfs
    repeat (first | exact .nil | refine .cons trivial ?_)
  rw [hp]
  congr 1
  have hw := (runChunks_wf (fgetsChunks pre) .init buf0 PState.wf_init)
  rw [← hst] at hw
  rw [step_G (fun b hb => (hbytes b hb).1) (sscanf_join _ _ hfit) (by rw [← hfs]; rfl) hw.2.1]
  rw [← hfs]
  rfl

/-- **C03.** A well-formed M line after any complete lines is read back exactly. -/
theorem C03_line_M (buf0 pre : List Nat) (hpre : EndsLine pre) (ms batt temp a2 a3 : Dec)
    (maxLag minFree maxUsed maxOver gpsFlag fs1 fsIdle : Int)
    (hlen : (lineM ms batt temp a2 a3 maxLag minFree maxUsed maxOver gpsFlag fs1 fsIdle).length
      ≤ 255) :
    parseGem buf0
        (pre ++ lineM ms batt temp a2 a3 maxLag minFree maxUsed maxOver gpsFlag fs1 fsIdle)
      = parseGem buf0 pre ++ [⟨.M, ms.val,
          [batt.val, temp.val, a2.val, a3.val, maxLag, minFree, maxUsed, maxOver, gpsFlag, fs1,
            fsIdle]⟩] := by
  have hbytes := join_bytes [.dec ms, .dec batt, .dec temp, .dec a2, .dec a3, .int maxLag,
    .int minFree, .int maxUsed, .int maxOver, .int gpsFlag, .int fs1, .int fsIdle]
  unfold lineM at *
  revert hbytes hlen
  generalize hfs : [Field.dec ms, .dec batt, .dec temp, .dec a2, .dec a3, .int maxLag,
    .int minFree, .int maxUsed, .int maxOver, .int gpsFlag, .int fs1, .int fsIdle] = fs
  intro hlen hbytes
  obtain ⟨st, buf, hst, hp⟩ := parse_append_line buf0 pre (77 :: 44 :: joinFields fs) hpre
    (by intro b hb
        simp only [List.mem_cons] at hb
        rcases hb with hb | hb | hb
        · subst hb; decide
        · subst hb; decide
        · exact (hbytes b hb).2)
    (by simp only [List.length_append, List.length_cons, List.length_nil] at *; omega)
  have hfit : List.Forall₂ Fits fmtM fs := by
    subst hfs
    repeat (first | exact .nil | refine .cons trivial ?_)
  rw [hp]
  congr 1
  have hw := (runChunks_wf (fgetsChunks pre) .init buf0 PState.wf_init)
  rw [← hst] at hw
  rw [step_M (fun b hb => (hbytes b hb).1) (sscanf_join _ _ hfit) (by rw [← hfs]; rfl) hw.2.2]
  rw [← hfs]
  rfl

/-- A concrete instance: a GPS line following a damaged one. -/
example : EndsLine (bytes "G,8171,70,20x\n") ∧
    parseGem (List.replicate 256 7)
      (bytes "G,8171,70,20x\n" ++ bytes "G,171.5,70,2020,6,20,5,21,22.0,43.62226,-116.20594\n")
    = [⟨.G, 8171, [70, 20, 0, 0, 0, 0, 0, 0, 0, 0, 0]⟩,
       ⟨.G, 343 / 2, [70, 2020, 6, 20, 5, 21, 22, 4362226 / 100000, -11620594 / 100000, 0, 0]⟩] := by
  unfold EndsLine
  decide +kernel

/-! ## C01, row width -/

/-- **C01.** Every row has 11 columns. -/
theorem C01_row_width (buf0 content : List Nat) : ∀ r ∈ parseGem buf0 content, r.vals.length = 11 := by
  have key : ∀ (cs : List (List Nat)) (st : PState) (buf : List Nat), st.wf →
      ∀ r ∈ parseChunks st buf cs, r.vals.length = 11 := by
    intro cs
    induction cs with
    | nil => intro st buf _ r hr; simp [parseChunks] at hr
    | cons c cs ih =>
      intro st buf hw r hr
      rw [parseChunks_cons] at hr
      have h := stepLine_wf st (loadBuf buf c) hw
      rcases List.mem_append.mp hr with hr | hr
      · rw [Option.mem_toList] at hr
        exact h.2 r hr
      · exact ih _ _ h.1 r hr
  exact key _ _ _ PState.wf_init

/-! ## C04 -/

/-- A D, G or M line in which every field of the documented format can be scanned. -/
def LineComplete (line : List Nat) : Prop :=
  (∃ body, line = 68 :: body ∧ (sscanf fmtD body).length = 2) ∨
  (∃ x body, line = 71 :: x :: body ∧ (sscanf fmtG body).length = 10) ∨
  (∃ x body, line = 77 :: x :: body ∧ (sscanf fmtM body).length = 12)

/-- **C04, partial.** The row of a complete line is the same whatever precedes it. Missing: lines with
fewer fields (see `C04_violated`). -/
theorem C04_complete_line_partial (buf1 buf2 pre1 pre2 body : List Nat) (h1 : EndsLine pre1)
    (h2 : EndsLine pre2) (hnl : ∀ b ∈ body, b ≠ 10) (hz : ∀ b ∈ body, b ≠ 0)
    (hlen : body.length ≤ 254) (hc : LineComplete (body ++ [10])) :
    ∃ r, parseGem buf1 (pre1 ++ (body ++ [10])) = parseGem buf1 pre1 ++ [r] ∧
      parseGem buf2 (pre2 ++ (body ++ [10])) = parseGem buf2 pre2 ++ [r] := by
  obtain ⟨st1, b1, hst1, hp1⟩ := parse_append_line buf1 pre1 body h1 hnl hlen
  obtain ⟨st2, b2, hst2, hp2⟩ := parse_append_line buf2 pre2 body h2 hnl hlen
  have hw1 := (runChunks_wf (fgetsChunks pre1) .init buf1 PState.wf_init)
  have hw2 := (runChunks_wf (fgetsChunks pre2) .init buf2 PState.wf_init)
  rw [← hst1] at hw1
  rw [← hst2] at hw2
  have hz' : ∀ b ∈ body ++ [10], b ≠ 0 := by
    intro b hb
    rcases List.mem_append.mp hb with hb | hb
    · exact hz b hb
    · simp at hb; omega
  suffices h : ∃ r, (stepLine st1 (loadBuf b1 (body ++ [10]))).1 = some r ∧
      (stepLine st2 (loadBuf b2 (body ++ [10]))).1 = some r by
    obtain ⟨r, e1, e2⟩ := h
    exact ⟨r, by rw [hp1, e1]; rfl, by rw [hp2, e2]; rfl⟩
  revert hc hz'
  generalize body ++ [10] = line
  intro hc hz'
  have ov : ∀ (a b : List Rat), b.length ≤ a.length → overlay a b = a := by
    intro a b h; unfold overlay; rw [List.drop_of_length_le h]; simp
  rcases hc with ⟨b, rfl, hl⟩ | ⟨x, b, rfl, hl⟩ | ⟨x, b, rfl, hl⟩
  · have hs : ∀ bb, cstr (loadBuf bb (68 :: b)) 1 = b := by
      intro bb
      rw [cstr_load _ _ _ (by simp)]
      · simp
      · intro y hy; exact hz' y (List.mem_of_mem_drop hy)
    have h0 : ∀ bb, (loadBuf bb (68 :: b)).getD 0 0 = 68 := by
      intro bb; rw [loadBuf_get _ _ _ (by simp)]; simp
    refine ⟨⟨.D, (sscanf fmtD b).getD 0 0, fillRow [(sscanf fmtD b).getD 1 0]⟩, ?_, ?_⟩
    all_goals
      unfold stepLine
      simp only [h0, hs, hl]
      rw [if_neg (by decide), if_pos trivial, if_neg (by decide)]
    · rw [ov _ st1.d (by rw [hl, hw1.1])]
    · rw [ov _ st2.d (by rw [hl, hw2.1])]
  · have hs : ∀ bb, cstr (loadBuf bb (71 :: x :: b)) 2 = b := by
      intro bb
      rw [cstr_load _ _ _ (by simp)]
      · simp
      · intro y hy; exact hz' y (List.mem_of_mem_drop hy)
    have h0 : ∀ bb, (loadBuf bb (71 :: x :: b)).getD 0 0 = 71 := by
      intro bb; rw [loadBuf_get _ _ _ (by simp)]; simp
    refine ⟨⟨.G, (sscanf fmtG b).getD 0 0, fillRow (sscanf fmtG b).tail⟩, ?_, ?_⟩
    all_goals
      unfold stepLine
      simp only [h0, hs]
      rw [if_neg (by decide), if_neg (by decide), if_pos trivial]
    · rw [ov _ st1.g (by rw [hl, hw1.2.1])]
    · rw [ov _ st2.g (by rw [hl, hw2.2.1])]
  · have hs : ∀ bb, cstr (loadBuf bb (77 :: x :: b)) 2 = b := by
      intro bb
      rw [cstr_load _ _ _ (by simp)]
      · simp
      · intro y hy; exact hz' y (List.mem_of_mem_drop hy)
    have h0 : ∀ bb, (loadBuf bb (77 :: x :: b)).getD 0 0 = 77 := by
      intro bb; rw [loadBuf_get _ _ _ (by simp)]; simp
    refine ⟨⟨.M, (sscanf fmtM b).getD 0 0, fillRow (sscanf fmtM b).tail⟩, ?_, ?_⟩
    all_goals
      unfold stepLine
      simp only [h0, hs]
      rw [if_neg (by decide), if_neg (by decide), if_neg (by decide), if_pos trivial]
    · rw [ov _ st1.m (by rw [hl, hw1.2.2])]
    · rw [ov _ st2.m (by rw [hl, hw2.2.2])]

example : LineComplete (bytes "G,171.5,70,2020,6,20,5,21,22.0,43.6,-116.2\n") := by
  right; left
  exact ⟨44, bytes "171.5,70,2020,6,20,5,21,22.0,43.6,-116.2\n", by decide +kernel, by decide +kernel⟩

/-- **C04 is violated.** A GPS line cut off after two fields takes date and position from the previous
GPS line, so the same line yields different rows after different lines; likewise an unreadable D line
repeats the previous sample. -/
theorem C04_violated :
    parseGem [] (bytes "G,1,2,2020,6,20,5,21,22.0,43.5,-116.5\nG,9,8\n")
      = [⟨.G, 1, [2, 2020, 6, 20, 5, 21, 22, 87 / 2, -233 / 2, 0, 0]⟩,
         ⟨.G, 9, [8, 2020, 6, 20, 5, 21, 22, 87 / 2, -233 / 2, 0, 0]⟩] ∧
    parseGem [] (bytes "G,9,8\n") = [⟨.G, 9, [8, 0, 0, 0, 0, 0, 0, 0, 0, 0, 0]⟩] ∧
    parseGem [] (bytes "D100,5\nD?\n")
      = [⟨.D, 100, 5 :: List.replicate 10 0⟩, ⟨.D, 100, 5 :: List.replicate 10 0⟩] := by
  decide +kernel

/-! ## Cut-off lines in general -/

theorem runChunks_append : ∀ (cs ds : List (List Nat)) (st : PState) (buf : List Nat),
    runChunks st buf (cs ++ ds) = runChunks (runChunks st buf cs).1 (runChunks st buf cs).2 ds := by
  intro cs
  induction cs with
  | nil => intro ds st buf; rfl
  | cons c cs ih => intro ds st buf; rw [List.cons_append, runChunks, runChunks, ih]

theorem stepLine_keeps_g (st : PState) (buf : List Nat) (h : buf.getD 0 0 ≠ 71) : (stepLine st buf).2.g = st.g := by
  unfold stepLine
  simp only
  split_ifs <;> rfl

theorem cut_fgets_lines : ∀ (ls : List (List Nat)), (∀ l ∈ ls, (∀ b ∈ l, b ≠ 10) ∧ l.length ≤ 254) →
    fgetsChunks (ls.flatMap fun l => l ++ [10]) = ls.map fun l => l ++ [10]
  | [], _ => rfl
  | l :: ls, h => by
    rw [List.flatMap_cons, List.append_assoc, List.singleton_append, fgets_line (h l (by simp)).1 (h l (by simp)).2, cut_fgets_lines ls fun x hx => h x (by simp [hx]),
      List.map_cons]

theorem runChunks_keeps_g : ∀ (ls : List (List Nat)) (st : PState) (buf : List Nat), (∀ l ∈ ls, l.head? ≠ some 71) →
    (runChunks st buf (ls.map fun l => l ++ [10])).1.g = st.g
  | [], _, _, _ => rfl
  | l :: ls, st, buf, h => by
    rw [List.map_cons, runChunks, runChunks_keeps_g ls _ _ fun x hx => h x (by simp [hx])]
    apply stepLine_keeps_g
    rw [loadBuf_get _ _ _ (by simp)]
    have := h l (by simp)
    cases l with
    | nil => simp
    | cons x l => simpa using this

theorem sscanf_cut : ∀ (cs : List Conv) (fs : List Field), List.Forall₂ Fits cs fs → ∀ k, 0 < k → k ≤ fs.length →
    sscanf cs (joinFields (fs.take k) ++ [10]) = (fs.take k).map Field.val := by
  intro cs fs h
  induction h with
  | nil => intro k h1 h2; simp at h2; omega
  | @cons c f cs fs hcf _ ih =>
    intro k h1 h2
    obtain ⟨k, rfl⟩ := Nat.exists_eq_add_of_lt h1
    rw [show 0 + k + 1 = k + 1 by omega, List.take_succ_cons]
    rcases Nat.eq_zero_or_pos k with rfl | hk
    · simp only [List.take_zero, joinFields, sscanf, List.map_cons, List.map_nil]
      rw [scanConv_text hcf [10] (endsNum_nl [])]
      rfl
    · have ih := ih k hk (by simp at h2; omega)
      cases hfs : fs.take k with
      | nil =>
        have := congrArg List.length hfs
        rw [List.length_take, List.length_nil] at this
        rw [List.length_cons] at h2
        omega
      | cons f2 fs2 =>
        rw [hfs] at ih
        simp only [joinFields, sscanf, List.map_cons, List.append_assoc, List.cons_append]
        rw [scanConv_text hcf _ (endsNum_comma _)]
        simp only [List.cons.injEq, true_and]
        simpa using ih

/-- **C04 is violated** by every GPS line cut off after some of its fields: the fields that are missing are taken over from the GPS line
before it (with any other lines between the two), so that the row mixes the new count with the old time and position. -/
theorem C04_violated_cut (buf0 pre : List Nat) (hpre : EndsLine pre) (fs gs : List Field) (hf : List.Forall₂ Fits fmtG fs) (hg : List.Forall₂ Fits fmtG gs)
    (mid : List (List Nat)) (hmid : ∀ l ∈ mid, (∀ b ∈ l, b ≠ 10) ∧ l.length ≤ 254 ∧ l.head? ≠ some 71) (k : Nat) (hk : 0 < k) (hk10 : k < 10)
    (hl1 : (joinFields fs).length ≤ 252) (hl2 : (joinFields (gs.take k)).length ≤ 252) :
    parseGem buf0 ((pre ++ (71 :: 44 :: joinFields fs ++ [10]) ++ mid.flatMap fun l => l ++ [10]) ++ (71 :: 44 :: joinFields (gs.take k) ++ [10])) =
      parseGem buf0 (pre ++ (71 :: 44 :: joinFields fs ++ [10]) ++ mid.flatMap fun l => l ++ [10]) ++
        [⟨.G, ((gs.take k ++ fs.drop k).map Field.val).getD 0 0, ((gs.take k ++ fs.drop k).map Field.val).tail ++ [0, 0]⟩] := by
  have hlf : fs.length = 10 := hf.length_eq.symm
  have hlg : gs.length = 10 := hg.length_eq.symm
  have hbody : ∀ (l : List Field), ∀ b ∈ 71 :: 44 :: joinFields l, b ≠ 10 := by
    intro l b hb
    simp only [List.mem_cons] at hb
    rcases hb with rfl | rfl | hb
    · decide
    · decide
    · exact (join_bytes l b hb).2
  have hend : EndsLine (pre ++ (71 :: 44 :: joinFields fs ++ [10])) := by
    right
    rw [← List.append_assoc, List.getLast?_concat]
  have hend2 : EndsLine (pre ++ (71 :: 44 :: joinFields fs ++ [10]) ++ mid.flatMap fun l => l ++ [10]) := by
    right
    rcases List.eq_nil_or_concat mid with rfl | ⟨m, x, rfl⟩
    · rw [List.flatMap_nil, List.append_nil, ← List.append_assoc, List.getLast?_concat]
    · rw [List.concat_eq_append, List.flatMap_append, List.flatMap_singleton, ← List.append_assoc, ← List.append_assoc, List.getLast?_concat]
  obtain ⟨st, buf, hst, hp⟩ := parse_append_line buf0 _ (71 :: 44 :: joinFields (gs.take k)) hend2 (hbody _) (by simp only [List.length_cons]; omega)
  rw [hp]
  congr 1
  -- the placeholders hold the fields of the earlier line
  have hg0 : st.g = fs.map Field.val := by
    have e1 : fgetsChunks (pre ++ (71 :: 44 :: joinFields fs ++ [10]) ++ mid.flatMap fun l => l ++ [10]) =
        fgetsChunks pre ++ ([71 :: 44 :: joinFields fs ++ [10]] ++ mid.map fun l => l ++ [10]) := by
      rw [fgets_append hend, fgets_append hpre, cut_fgets_lines mid fun l hl => ⟨(hmid l hl).1, (hmid l hl).2.1⟩]
      have := fgets_line (hbody fs) (by simp only [List.length_cons]; omega) (rest := [])
      rw [this]
      simp [fgetsChunks, chunkGo]
    have e2 := congrArg (fun p => p.1.g) hst
    simp only at e2
    rw [e2, e1, runChunks_append, runChunks_append, runChunks_keeps_g _ _ _ fun l hl => (hmid l hl).2.2]
    have hw := (runChunks_wf (fgetsChunks pre) .init buf0 PState.wf_init).2.1
    generalize (runChunks .init buf0 (fgetsChunks pre)).1 = st0 at hw ⊢
    generalize (runChunks .init buf0 (fgetsChunks pre)).2 = b0
    show (stepLine st0 (loadBuf b0 (71 :: 44 :: joinFields fs ++ [10]))).2.g = _
    have hs : cstr (loadBuf b0 (71 :: 44 :: joinFields fs ++ [10])) 2 = joinFields fs ++ [10] := by
      rw [cstr_load _ _ _ (by simp)]
      · simp
      · intro b hb'
        simp only [List.cons_append, List.drop_succ_cons, List.drop_zero, List.mem_append, List.mem_singleton] at hb'
        rcases hb' with hb' | hb'
        · exact (join_bytes _ b hb').1
        · subst hb'; decide
    have h0 : (loadBuf b0 (71 :: 44 :: joinFields fs ++ [10])).getD 0 0 = 71 := by
      rw [loadBuf_get _ _ _ (by simp)]; simp
    unfold stepLine
    simp only [h0, hs]
    rw [if_neg (by decide), if_neg (by decide), if_pos trivial, sscanf_join _ _ hf]
    unfold overlay
    rw [List.drop_of_length_le (by rw [List.length_map]; omega), List.append_nil]
  have hs : cstr (loadBuf buf (71 :: 44 :: joinFields (gs.take k) ++ [10])) 2 = joinFields (gs.take k) ++ [10] := by
    rw [cstr_load _ _ _ (by simp)]
    · simp
    · intro b hb'
      simp only [List.cons_append, List.drop_succ_cons, List.drop_zero, List.mem_append, List.mem_singleton] at hb'
      rcases hb' with hb' | hb'
      · exact (join_bytes _ b hb').1
      · subst hb'; decide
  have h0 : (loadBuf buf (71 :: 44 :: joinFields (gs.take k) ++ [10])).getD 0 0 = 71 := by
    rw [loadBuf_get _ _ _ (by simp)]; simp
  have hov : overlay ((gs.take k).map Field.val) st.g = (gs.take k ++ fs.drop k).map Field.val := by
    unfold overlay
    rw [hg0, List.length_map, List.length_take, List.map_append, List.map_drop, Nat.min_eq_left (by omega)]
  have hlen : ((gs.take k ++ fs.drop k).map Field.val).length = 10 := by simp; omega
  unfold stepLine
  simp only [h0, hs]
  rw [if_neg (by decide), if_neg (by decide), if_pos trivial, sscanf_cut _ _ hg k hk (by omega), hov]
  unfold fillRow
  rw [List.length_tail, hlen]
  rfl

/-- The hypotheses of `C04_violated_cut` hold: a line cut off after the lag, with a sample between the two. -/
example : parseGem [] (bytes "G,1,2,2020,6,20,5,21,22,43,-116\nD5,7\nG,9,8\n") =
    parseGem [] (bytes "G,1,2,2020,6,20,5,21,22,43,-116\nD5,7\n") ++ [⟨.G, 9, [8, 2020, 6, 20, 5, 21, 22, 43, -116, 0, 0]⟩] := by
  have h := C04_violated_cut [] [] (.inl rfl)
    [.dec (.ofNat 1), .dec (.ofNat 2), .int 2020, .int 6, .int 20, .int 5, .int 21, .dec (.ofNat 22), .dec (.ofNat 43), .dec ⟨true, 116, [], by simp⟩]
    [.dec (.ofNat 9), .dec (.ofNat 8), .int 2020, .int 6, .int 20, .int 5, .int 21, .dec (.ofNat 23), .dec (.ofNat 44), .dec ⟨true, 117, [], by simp⟩]
    (by repeat (first | exact .nil | refine .cons trivial ?_)) (by repeat (first | exact .nil | refine .cons trivial ?_))
    [bytes "D5,7"] (by decide +kernel) 2 (by decide) (by decide) (by decide +kernel) (by decide +kernel)
  refine (congrArg (parseGem []) (by decide +kernel)).trans (h.trans ?_)
  decide +kernel

end Gemlog
