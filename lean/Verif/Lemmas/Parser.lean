import Verif.Model.Parser
import Verif.Spec.RawFormat

namespace Gemlog

/-! ## Scanning printed decimals -/

theorem scanFrac_dot {fp rest : List Nat} (hfp : ∀ b ∈ fp, isDigit b = true)
    (hr : ∀ b ∈ rest.head?, isDigit b = false) : scanFrac (46 :: (fp ++ rest)) = (fp, rest) := by
  simp [scanFrac, takeWhile_digits hfp hr]

theorem scanFrac_other {rest : List Nat} (hr : ∀ b ∈ rest.head?, b ≠ 46) :
    scanFrac rest = ([], rest) := by
  unfold scanFrac
  split
  · rename_i l; exact absurd rfl (hr 46 (by simp))
  · rfl

theorem scanExp_other {rest : List Nat} (hr : ∀ b ∈ rest.head?, b ≠ 101 ∧ b ≠ 69) :
    scanExp rest = (0, rest) := by
  cases rest with
  | nil => rfl
  | cons b r =>
    have := hr b (by simp)
    simp [scanExp, this]

/-- A byte that ends a printed decimal number. -/
def EndsNum (rest : List Nat) : Prop :=
  ∀ b ∈ rest.head?, isDigit b = false ∧ b ≠ 46 ∧ b ≠ 101 ∧ b ≠ 69

theorem scanLf_text (x : Dec) (rest : List Nat) (hr : EndsNum rest) :
    scanLf (x.text ++ rest) = some (x.val, rest) := by
  obtain ⟨hne, hd, hv⟩ := natStr_spec x.ip
  obtain ⟨b, l, hbl⟩ := List.exists_cons_of_ne_nil hne
  have hb : 48 ≤ b ∧ b ≤ 57 := isDigit_iff.mp (hd b (by rw [hbl]; simp))
  -- the part after the sign
  let tail := (if x.fp = [] then [] else 46 :: x.fp) ++ rest
  have htail : ∀ b ∈ tail.head?, isDigit b = false := by
    intro c hc
    by_cases hf : x.fp = []
    · simp [tail, hf] at hc; exact (hr c (by simpa using hc)).1
    · simp [tail, hf] at hc; subst hc; rfl
  have ht := takeWhile_digits hd htail
  have hfrac : scanFrac tail = (x.fp, rest) := by
    by_cases hf : x.fp = []
    · simp only [tail, hf, if_true, List.nil_append]
      rw [scanFrac_other (fun b hb => (hr b hb).2.1)]
    · simp only [tail, hf, if_false, List.cons_append]
      exact scanFrac_dot x.fpDigits (fun b hb => (hr b hb).1)
  have hexp : scanExp rest = (0, rest) := scanExp_other (fun b hb => (hr b hb).2.2)
  have hsplit : x.text ++ rest = (if x.neg then [45] else []) ++ (natStr x.ip ++ tail) := by
    simp [Dec.text, tail]
  have hsign : scanSign ((x.text ++ rest).dropWhile isSpace) = (x.neg, natStr x.ip ++ tail) := by
    rw [hsplit]
    cases x.neg with
    | true =>
      have : ([45] ++ (natStr x.ip ++ tail)).dropWhile isSpace = 45 :: (natStr x.ip ++ tail) :=
        dropSpace_of rfl
      simp only [if_true]
      rw [this]; rfl
    | false =>
      have : (natStr x.ip ++ tail).dropWhile isSpace = natStr x.ip ++ tail := by
        rw [hbl, List.cons_append]; apply dropSpace_of
        simp [isSpace]; omega
      simp only [Bool.false_eq_true, if_false, List.nil_append]
      rw [this, hbl, List.cons_append]; exact scanSign_of_ge hb.1
  unfold scanLf
  rw [hsign]
  simp only [ht, hfrac, hne, false_and, if_false, hexp, hv]
  unfold Dec.val
  cases x.neg <;> simp

theorem endsNum_comma (l : List Nat) : EndsNum (44 :: l) := by
  intro b hb; simp at hb; subst hb; decide

theorem endsNum_nl (l : List Nat) : EndsNum (10 :: l) := by
  intro b hb; simp at hb; subst hb; decide

/-- A field printed in the way its directive expects. -/
def Fits : Conv → Field → Prop
  | .d, .int _ => True
  | .lf, .dec _ => True
  | _, _ => False

theorem scanConv_text {c : Conv} {f : Field} (h : Fits c f) (rest : List Nat) (hr : EndsNum rest) :
    scanConv c (f.text ++ rest) = some (f.val, rest) := by
  cases c <;> cases f <;> simp only [Fits] at h
  · rename_i z
    simp only [scanConv, Field.text, Field.val]
    rw [scanInt_intStr z rest (fun b hb => (hr b hb).1)]; rfl
  · rename_i x
    simp only [scanConv, Field.text, Field.val]
    exact scanLf_text x rest hr

theorem sscanf_join : ∀ (cs : List Conv) (fs : List Field), List.Forall₂ Fits cs fs →
    sscanf cs (joinFields fs ++ [10]) = fs.map Field.val := by
  intro cs fs h
  induction h with
  | nil => simp [sscanf]
  | cons hcf hrest ih =>
    rename_i c f cs fs
    cases fs with
    | nil =>
      cases hrest
      simp only [joinFields, sscanf, List.map_cons, List.map_nil]
      rw [scanConv_text hcf [10] (endsNum_nl [])]
      rfl
    | cons f2 fs =>
      simp only [joinFields, sscanf, List.map_cons, List.append_assoc, List.cons_append]
      rw [scanConv_text hcf _ (endsNum_comma _)]
      simp only [List.cons.injEq, true_and]
      simpa using ih

theorem fits_D (t : Dec) (a : Int) : List.Forall₂ Fits fmtD [.dec t, .int a] := by
  repeat (first | exact .nil | refine .cons trivial ?_)

/-! ## Bytes of printed lines -/

theorem digit_byte {b : Nat} (h : isDigit b = true) : b ≠ 0 ∧ b ≠ 10 := by
  rw [isDigit_iff] at h; omega

theorem natStr_bytes (n : Nat) : ∀ b ∈ natStr n, b ≠ 0 ∧ b ≠ 10 :=
  fun b hb => digit_byte (natStr_digits n b hb)

theorem field_bytes (f : Field) : ∀ b ∈ f.text, b ≠ 0 ∧ b ≠ 10 := by
  intro b hb
  cases f with
  | int z =>
    simp only [Field.text, intStr] at hb
    split_ifs at hb
    · rcases List.mem_cons.mp hb with h | h
      · subst h; decide
      · exact natStr_bytes _ b h
    · exact natStr_bytes _ b hb
  | dec x =>
    simp only [Field.text, Dec.text, List.mem_append] at hb
    rcases hb with (h | h) | h
    · split_ifs at h <;> simp at h; subst h; decide
    · exact natStr_bytes _ b h
    · split_ifs at h
      · simp at h
      · rcases List.mem_cons.mp h with h | h
        · subst h; decide
        · exact digit_byte (x.fpDigits b h)

theorem join_bytes (fs : List Field) : ∀ b ∈ joinFields fs, b ≠ 0 ∧ b ≠ 10 := by
  induction fs with
  | nil => simp [joinFields]
  | cons f fs ih =>
    cases fs with
    | nil => simpa [joinFields] using field_bytes f
    | cons f2 fs =>
      intro b hb
      simp only [joinFields, List.mem_append, List.mem_cons] at hb
      rcases hb with h | h | h
      · exact field_bytes f b h
      · subst h; decide
      · exact ih b (by simpa [joinFields] using h)

/-! ## Chunks -/

theorem chunkGo_line : ∀ (body cur : List Nat), (∀ b ∈ body, b ≠ 10) →
    cur.length + body.length ≤ 254 → ∀ rest : List Nat,
    chunkGo cur (body ++ 10 :: rest) = (cur ++ body ++ [10]) :: chunkGo [] rest := by
  intro body
  induction body with
  | nil => intro cur _ _ rest; simp [chunkGo]
  | cons b body ih =>
    intro cur hb hlen rest
    have h1 : b ≠ 10 := hb b (by simp)
    simp only [List.length_cons] at hlen
    rw [List.cons_append, chunkGo, if_neg (by omega)]
    rw [ih (cur ++ [b]) (fun x hx => hb x (by simp [hx])) (by simp; omega)]
    simp

theorem fgets_line {body : List Nat} (hb : ∀ b ∈ body, b ≠ 10) (hlen : body.length ≤ 254)
    (rest : List Nat) :
    fgetsChunks (body ++ 10 :: rest) = (body ++ [10]) :: fgetsChunks rest := by
  unfold fgetsChunks
  rw [chunkGo_line body [] hb (by simpa using hlen)]; simp

theorem chunkGo_append : ∀ (pre cur rest : List Nat), pre.getLast? = some 10 →
    chunkGo cur (pre ++ rest) = chunkGo cur pre ++ chunkGo [] rest := by
  intro pre
  induction pre with
  | nil => intro cur rest h; simp at h
  | cons b pre ih =>
    intro cur rest h
    cases pre with
    | nil =>
      simp at h; subst h
      simp [chunkGo]
    | cons c pre =>
      have h' : (c :: pre).getLast? = some 10 := by simpa using h
      rw [List.cons_append, chunkGo, chunkGo]
      split_ifs
      · rw [ih [] rest h']; simp
      · rw [ih _ rest h']

theorem fgets_append {pre : List Nat} (h : EndsLine pre) (rest : List Nat) :
    fgetsChunks (pre ++ rest) = fgetsChunks pre ++ fgetsChunks rest := by
  rcases h with h | h
  · subst h; simp [fgetsChunks, chunkGo]
  · exact chunkGo_append pre [] rest h

/-! ## Running the parser over a prefix -/

/-- Placeholders and buffer after some pieces (helper for proofs). -/
def runChunks (st : PState) (buf : List Nat) : List (List Nat) → PState × List Nat
  | [] => (st, buf)
  | c :: cs => runChunks (stepLine st (loadBuf buf c)).2 (loadBuf buf c) cs

theorem parseChunks_cons (st : PState) (buf c : List Nat) (cs : List (List Nat)) :
    parseChunks st buf (c :: cs) = (stepLine st (loadBuf buf c)).1.toList ++
      parseChunks (stepLine st (loadBuf buf c)).2 (loadBuf buf c) cs := by
  simp only [parseChunks]
  split
  · rename_i r st' h; rw [h]; simp
  · rename_i st' h; rw [h]; simp

theorem parseChunks_append : ∀ (cs ds : List (List Nat)) (st : PState) (buf : List Nat),
    parseChunks st buf (cs ++ ds)
      = parseChunks st buf cs ++ parseChunks (runChunks st buf cs).1 (runChunks st buf cs).2 ds := by
  intro cs
  induction cs with
  | nil => intro ds st buf; simp [parseChunks, runChunks]
  | cons c cs ih =>
    intro ds st buf
    rw [List.cons_append, parseChunks_cons, parseChunks_cons, ih, runChunks, List.append_assoc]

/-- A complete line appended to a file adds the row of that line. -/
theorem parse_append_line (buf0 pre body : List Nat) (hpre : EndsLine pre)
    (hb : ∀ b ∈ body, b ≠ 10) (hlen : body.length ≤ 254) :
    ∃ st buf, (st, buf) = runChunks .init buf0 (fgetsChunks pre) ∧
      parseGem buf0 (pre ++ (body ++ [10])) = parseGem buf0 pre ++
        (stepLine st (loadBuf buf (body ++ [10]))).1.toList := by
  refine ⟨_, _, rfl, ?_⟩
  unfold parseGem
  rw [fgets_append hpre, fgets_line hb hlen, parseChunks_append]
  congr 1
  rw [parseChunks_cons]
  simp [fgetsChunks, chunkGo, parseChunks]

theorem loadBuf_get (buf chunk : List Nat) (k : Nat) (h : k < chunk.length) :
    (loadBuf buf chunk).getD k 0 = chunk.getD k 0 := by
  unfold loadBuf
  simp [List.getD, List.getElem?_append_left h]

theorem cstr_load (buf chunk : List Nat) (k : Nat) (h : k ≤ chunk.length)
    (hz : ∀ b ∈ chunk.drop k, b ≠ 0) : cstr (loadBuf buf chunk) k = chunk.drop k := by
  unfold cstr loadBuf
  rw [List.drop_append_of_le_length h]
  have : ∀ (l r : List Nat), (∀ b ∈ l, b ≠ 0) → (l ++ 0 :: r).takeWhile (· ≠ 0) = l := by
    intro l
    induction l with
    | nil => intro r _; simp
    | cons b l ih =>
      intro r h
      have := ih r (fun x hx => h x (by simp [hx]))
      simpa [h b (by simp)] using this
  exact this _ _ hz

/-! ## Previous sample time -/

/-- Time of the last sample in a list of rows, `x` if there is none (helper). -/
def lastSampleD (x : Rat) : List Row → Rat
  | [] => x
  | r :: rs => lastSampleD (if r.kind = .D then r.millis else x) rs

theorem stepLine_prev (st : PState) (buf : List Nat) :
    (stepLine st buf).2.prev = lastSampleD st.prev (stepLine st buf).1.toList := by
  unfold stepLine
  simp only
  split_ifs <;> simp [lastSampleD]

theorem lastSampleD_append (a b : List Row) : ∀ x : Rat,
    lastSampleD x (a ++ b) = lastSampleD (lastSampleD x a) b := by
  induction a with
  | nil => intro x; rfl
  | cons r a ih => intro x; simp [lastSampleD, ih]

theorem runChunks_prev : ∀ (cs : List (List Nat)) (st : PState) (buf : List Nat),
    (runChunks st buf cs).1.prev = lastSampleD st.prev (parseChunks st buf cs) := by
  intro cs
  induction cs with
  | nil => intro st buf; rfl
  | cons c cs ih =>
    intro st buf
    rw [runChunks, ih, parseChunks_cons, lastSampleD_append, stepLine_prev]

/-! ## Widths of the placeholders -/

/-- The placeholder lists have their declared widths (helper). -/
def PState.wf (st : PState) : Prop := st.d.length = 2 ∧ st.g.length = 10 ∧ st.m.length = 12

theorem PState.wf_init : PState.init.wf := ⟨rfl, rfl, rfl⟩

theorem sscanf_length : ∀ (cs : List Conv) (s : List Nat), (sscanf cs s).length ≤ cs.length := by
  intro cs
  induction cs with
  | nil => intro s; simp [sscanf]
  | cons c cs ih =>
    intro s
    unfold sscanf
    split
    · simp
    · rename_i r _
      have := ih r
      simp; omega
    · simp

theorem overlay_length {a b : List Rat} (h : a.length ≤ b.length) : (overlay a b).length = b.length := by
  unfold overlay; simp; omega

theorem stepLine_wf (st : PState) (buf : List Nat) (h : st.wf) :
    (stepLine st buf).2.wf ∧ ∀ r ∈ (stepLine st buf).1, r.vals.length = 11 := by
  obtain ⟨hd, hg, hm⟩ := h
  have h1 : (overlay (sscanf fmtD (cstr buf 1)) st.d).length = 2 := by
    rw [overlay_length, hd]; rw [hd]; exact sscanf_length _ _
  have h2 : (overlay (sscanf fmtG (cstr buf 2)) st.g).length = 10 := by
    rw [overlay_length, hg]; rw [hg]; exact sscanf_length _ _
  have h3 : (overlay (sscanf fmtM (cstr buf 2)) st.m).length = 12 := by
    rw [overlay_length, hm]; rw [hm]; exact sscanf_length _ _
  unfold stepLine
  simp only
  split_ifs <;> simp_all [PState.wf, fillRow]

theorem runChunks_wf : ∀ (cs : List (List Nat)) (st : PState) (buf : List Nat), st.wf →
    (runChunks st buf cs).1.wf := by
  intro cs
  induction cs with
  | nil => intro st buf h; exact h
  | cons c cs ih => intro st buf h; exact ih _ _ (stepLine_wf st _ h).1

end Gemlog
