import Verif.Lemmas.Recording
import Verif.Model.Reference
import Verif.Spec.Reference
import Verif.Props.Header
import Verif.Props.ReadBuffer

/-! # Helper facts: the reference reader -/

namespace Gemlog

/-! ## Numbers -/

theorem intStr_dec (z : Int) : intStr z = (Dec.mk (decide (z < 0)) z.natAbs [] (by simp)).text := by
  unfold intStr Dec.text
  by_cases h : z < 0 <;> simp [h]

theorem int_decVal (z : Int) : (Dec.mk (decide (z < 0)) z.natAbs [] (by simp)).val = z := by
  unfold Dec.val
  simp only [List.length_nil, pow_zero, digitsVal, List.foldl_nil, Nat.cast_zero, zero_div, add_zero]
  by_cases h : z < 0
  · have e : ((z.natAbs : Int) : Rat) = ((-z : Int) : Rat) := by congr 1; omega
    rw [Int.cast_natCast] at e
    simp only [h, decide_true, if_true, e]; push_cast; ring
  · have e : ((z.natAbs : Int) : Rat) = ((z : Int) : Rat) := by congr 1; omega
    rw [Int.cast_natCast] at e
    simp only [h, decide_false, Bool.false_eq_true, if_false, e]; ring

/-- Bytes of printed numbers (helper). -/
def NumByte (b : Nat) : Prop := isDigit b = true ∨ b = 45 ∨ b = 46

theorem dec_numByte (x : Dec) : ∀ b ∈ x.text, NumByte b := by
  intro b hb
  unfold Dec.text at hb
  simp only [List.mem_append] at hb
  rcases hb with (h | h) | h
  · cases hn : x.neg
    · simp [hn] at h
    · simp [hn] at h; exact .inr (.inl h)
  · exact .inl (natStr_digits _ b h)
  · by_cases hf : x.fp = []
    · simp [hf] at h
    · simp only [hf, if_false, List.mem_cons] at h
      rcases h with h | h
      · exact .inr (.inr h)
      · exact .inl (x.fpDigits b h)

theorem field_numByte (f : Field) : ∀ b ∈ f.text, NumByte b := by
  cases f with
  | int z => rw [Field.text, intStr_dec]; exact dec_numByte _
  | dec x => exact dec_numByte x

theorem numByte_range {b : Nat} (h : NumByte b) : 45 ≤ b ∧ b ≤ 57 ∧ b ≠ 44 := by
  rcases h with h | h | h
  · rw [isDigit_iff] at h; omega
  · omega
  · omega

theorem numByte_notSpace {b : Nat} (h : NumByte b) : isSpace b = false := by
  have := numByte_range h
  simp [isSpace]; omega

theorem strip_num {s : List Nat} (h : ∀ b ∈ s, NumByte b) : strip s = s := by
  have e : ∀ t : List Nat, (∀ b ∈ t, NumByte b) → t.dropWhile isSpace = t := by
    intro t ht
    cases t with
    | nil => rfl
    | cons b t => rw [List.dropWhile_cons_of_neg]; simp [numByte_notSpace (ht b (by simp))]
  unfold strip
  rw [e s h, e s.reverse (fun b hb => h b (by simpa using hb)), List.reverse_reverse]

theorem pyFloat_dec (x : Dec) : pyFloat x.text = some x.val := by
  unfold pyFloat
  rw [strip_num (dec_numByte x)]
  have := scanLf_text x [] (by intro b hb; simp at hb)
  rw [List.append_nil] at this
  rw [this]

theorem pyFloat_field (f : Field) : pyFloat f.text = some f.val := by
  cases f with
  | int z => rw [Field.text, intStr_dec, pyFloat_dec, int_decVal]; rfl
  | dec x => exact pyFloat_dec x

theorem mapM_pyFloat : ∀ fs : List Field, (fs.map Field.text).mapM pyFloat = some (fs.map Field.val) := by
  intro fs
  induction fs with
  | nil => rfl
  | cons f fs ih =>
    rw [List.map_cons, List.mapM_cons, pyFloat_field, ih]
    rfl

/-! ## Fields and rows -/

theorem split_join : ∀ (f : Field) (fs : List Field) (p : List Nat), (∀ b ∈ p, b ≠ 44) →
    splitComma (p ++ joinFields (f :: fs)) = (p ++ f.text) :: fs.map Field.text := by
  intro f fs
  induction fs generalizing f with
  | nil =>
    intro p hp
    rw [joinFields, splitComma_plain]
    · rfl
    · intro b hb
      rcases List.mem_append.mp hb with h | h
      · exact hp b h
      · exact (numByte_range (field_numByte f b h)).2.2
  | cons f2 fs ih =>
    intro p hp
    rw [show p ++ joinFields (f :: f2 :: fs) = (p ++ f.text) ++ 44 :: ([] ++ joinFields (f2 :: fs)) by simp [joinFields],
      splitComma_comma, ih f2 [] (by simp)]
    · simp
    · intro b hb
      rcases List.mem_append.mp hb with h | h
      · exact hp b h
      · exact (numByte_range (field_numByte f b h)).2.2

theorem csvRowsGo_line : ∀ (body cur rest : List Nat), (∀ b ∈ body, b ≠ 10 ∧ b ≠ 13) →
    csvRowsGo cur (body ++ 10 :: rest) = (cur ++ body) :: csvRowsGo [] rest := by
  intro body
  induction body with
  | nil => intro cur rest _; simp [csvRowsGo]
  | cons b body ih =>
    intro cur rest h
    have hb := h b (by simp)
    rw [List.cons_append, csvRowsGo, if_neg (by tauto), ih _ _ (fun x hx => h x (by simp [hx]))]
    simp

theorem csvRows_line (body rest : List Nat) (h : ∀ b ∈ body, b < 128 ∧ b ≠ 10 ∧ b ≠ 13) :
    csvRows ((body ++ [10]) ++ rest) = splitComma body :: csvRows rest := by
  unfold csvRows
  rw [List.filter_append, List.filter_eq_self.mpr, List.append_assoc, List.singleton_append,
    csvRowsGo_line body [] _ (fun b hb => (h b hb).2)]
  · rfl
  · intro b hb
    rcases List.mem_append.mp hb with hb | hb
    · simpa using (h b hb).1
    · simp at hb; subst hb; rfl

theorem join_plain : ∀ fs : List Field, ∀ b ∈ joinFields fs, b < 128 ∧ b ≠ 10 ∧ b ≠ 13 := by
  intro fs
  induction fs with
  | nil => simp [joinFields]
  | cons f fs ih =>
    have hf : ∀ b ∈ f.text, b < 128 ∧ b ≠ 10 ∧ b ≠ 13 := by
      intro b hb
      have := numByte_range (field_numByte f b hb); omega
    cases fs with
    | nil => simpa [joinFields] using hf
    | cons f2 fs =>
      intro b hb
      simp only [joinFields, List.mem_append, List.mem_cons] at hb
      rcases hb with h | h | h
      · exact hf b h
      · subst h; decide
      · exact ih b (by simpa [joinFields] using h)

/-! ## The loop -/

/-- The lines with the times the reference reader gives them (helper). -/
def timed : Rat → List LogLine → List Event
  | _, [] => []
  | m, l :: ls =>
    match l.count with
    | none => ⟨m, l⟩ :: timed m ls
    | some c => ⟨unwrapMillis c m (2 ^ 12) (2 ^ 13), l⟩ :: timed (unwrapMillis c m (2 ^ 12) (2 ^ 13)) ls

/-- The rows stored for an event (helper). -/
def Event.sampleRow (e : Event) : Option (Rat × Rat) :=
  match e.line with
  | .sample _ z => some (e.T, (z : Rat))
  | _ => none

def Event.fixRow (e : Event) : Option (GRaw × Option Int) :=
  match e.graw with
  | some g => if gpsInBounds g then some (g, makeGpsTime g) else none
  | none => none

/-- The fields of a line (helper). -/
def LogLine.fields : LogLine → List (List Nat)
  | .sample ms z => (68 :: ms.text) :: [intStr z]
  | .letters .. => []
  | .fix ms lag yr mo day hr mn sec lat lon => [71] :: [Field.dec ms, .dec lag, .int yr, .int mo, .int day, .int hr, .int mn,
      .dec sec, .dec lat, .dec lon].map Field.text
  | .status ms batt temp a2 a3 maxLag minFree maxUsed maxOver gpsFlag fs1 fsIdle => [77] :: [Field.dec ms, .dec batt, .dec temp,
      .dec a2, .dec a3, .int maxLag, .int minFree, .int maxUsed, .int maxOver, .int gpsFlag, .int fs1,
      .int fsIdle].map Field.text
  | .other body => splitComma body

theorem text_plain (l : LogLine) (hp : l.Valid ∧ l.Plain) :
    ∃ body, l.text = body ++ [10] ∧ (∀ b ∈ body, b < 128 ∧ b ≠ 10 ∧ b ≠ 13) ∧ splitComma body = l.fields := by
  cases l with
  | letters x y => exact hp.2.elim
  | sample ms z =>
    refine ⟨68 :: joinFields [.dec ms, .int z], rfl, ?_, ?_⟩
    · intro b hb
      rcases List.mem_cons.mp hb with h | h
      · subst h; decide
      · exact join_plain _ b h
    · exact split_join (.dec ms) [.int z] [68] (by simp)
  | fix ms lag yr mo day hr mn sec lat lon =>
    refine ⟨71 :: 44 :: joinFields [.dec ms, .dec lag, .int yr, .int mo, .int day, .int hr, .int mn,
            .dec sec, .dec lat, .dec lon], rfl, ?_, ?_⟩
    · intro b hb
      simp only [List.mem_cons (a := b) (b := 71), List.mem_cons (a := b) (b := 44)] at hb
      rcases hb with h | h | h
      · subst h; decide
      · subst h; decide
      · exact join_plain _ b h
    · have := splitComma_comma [71] (joinFields [.dec ms, .dec lag, .int yr, .int mo, .int day, .int hr, .int mn,
            .dec sec, .dec lat, .dec lon]) (by simp)
      refine this.trans ?_
      have e := split_join (.dec ms) [.dec lag, .int yr, .int mo, .int day, .int hr, .int mn,
            .dec sec, .dec lat, .dec lon] [] (by simp)
      rw [List.nil_append] at e
      rw [e]; rfl
  | status ms batt temp a2 a3 maxLag minFree maxUsed maxOver gpsFlag fs1 fsIdle =>
    refine ⟨77 :: 44 :: joinFields [.dec ms, .dec batt, .dec temp,
            .dec a2, .dec a3, .int maxLag, .int minFree, .int maxUsed, .int maxOver, .int gpsFlag, .int fs1,
            .int fsIdle], rfl, ?_, ?_⟩
    · intro b hb
      simp only [List.mem_cons (a := b) (b := 77), List.mem_cons (a := b) (b := 44)] at hb
      rcases hb with h | h | h
      · subst h; decide
      · subst h; decide
      · exact join_plain _ b h
    · have := splitComma_comma [77] (joinFields [.dec ms, .dec batt, .dec temp,
            .dec a2, .dec a3, .int maxLag, .int minFree, .int maxUsed, .int maxOver, .int gpsFlag, .int fs1,
            .int fsIdle]) (by simp)
      refine this.trans ?_
      have e := split_join (.dec ms) [.dec batt, .dec temp,
            .dec a2, .dec a3, .int maxLag, .int minFree, .int maxUsed, .int maxOver, .int gpsFlag, .int fs1,
            .int fsIdle] [] (by simp)
      rw [List.nil_append] at e
      rw [e]; rfl
  | other body =>
    refine ⟨body, rfl, ?_, rfl⟩
    intro b hb
    have h1 := hp.1.1 b hb
    have h2 := hp.2 b hb
    exact ⟨h2.2.1, h1, h2.2.2⟩

theorem refCheck_eq (m lag y mo d h mi s lat lon : Rat) :
    refCheck [m, lag, y, mo, d, h, mi, s, lat, lon]
      = some (gpsInBounds ⟨m, some lag, some y, some mo, some d, some h, some mi, some s, some lat, some lon⟩) := by
  rw [← C11_reference_same_test]
  unfold refCheck
  dsimp only
  by_cases hl : lat = 0 ∨ lat > 90 ∨ lat < -90
  · rw [if_pos hl]
    congr 1
    unfold slowCheckGps
    rcases hl with h | h | h <;> simp [h]
  · rw [if_neg hl]

/-- The time after a line (helper). -/
def nextMillis (m : Rat) (l : LogLine) : Rat :=
  match l.count with
  | none => m
  | some c => unwrapMillis c m (2 ^ 12) (2 ^ 13)

theorem timed_cons (m : Rat) (l : LogLine) (ls : List LogLine) :
    timed m (l :: ls) = ⟨nextMillis m l, l⟩ :: timed (nextMillis m l) ls := by
  rw [timed]
  unfold nextMillis
  cases l.count <;> rfl

/-- One row of the file (helper). -/
theorem refRow_line (l : LogLine) (hp : l.Valid ∧ l.Plain) (body : List Nat) (hb : l.text = body ++ [10])
    (st : RefState) (hD : st.D.length + (if l.isSample then 1 else 0) ≤ 750000)
    (hM : st.M.length + (if l.isStatus then 1 else 0) ≤ 15000) (hG : st.G.length + (if l.isFix then 1 else 0) ≤ 15000) :
    refRow st (splitComma body) = .ok ⟨nextMillis st.millis l, st.D ++ (Event.sampleRow ⟨nextMillis st.millis l, l⟩).toList,
      st.M ++ (Event.statusRow ⟨nextMillis st.millis l, l⟩).toList, st.G ++ (Event.fixRow ⟨nextMillis st.millis l, l⟩).toList⟩ := by
  obtain ⟨body', hb', _, hs⟩ := text_plain l hp
  have hbb : body = body' := by
    rw [hb'] at hb
    exact (List.append_inj_left hb.symm (by
      have := congrArg List.length hb; simpa using this.symm))
  subst hbb
  rw [hs]
  cases l with
  | letters x y => exact hp.2.elim
  | sample ms z =>
    dsimp only [LogLine.isSample] at hD
    have e : [ms.text, intStr z].mapM pyFloat = some [ms.val, (z : Rat)] := mapM_pyFloat [.dec ms, .int z]
    unfold refRow LogLine.fields
    dsimp only
    rw [if_pos rfl]
    unfold refData
    rw [e]
    simp only [if_true]
    unfold refSample npAssign
    rw [if_pos (by simp)]
    simp only
    rw [if_pos (by simp at hD; omega)]
    simp [nextMillis, LogLine.count, Event.sampleRow, Event.statusRow, Event.fixRow, Event.graw]
  | fix ms lag yr mo day hr mn sec lat lon =>
    dsimp only [LogLine.isFix] at hG
    have e := mapM_pyFloat [.dec ms, .dec lag, .int yr, .int mo, .int day, .int hr, .int mn,
            .dec sec, .dec lat, .dec lon]
    unfold refRow LogLine.fields
    dsimp only
    rw [if_neg (by decide), if_pos (by decide)]
    unfold refData
    rw [e]
    simp only [List.map_cons, List.map_nil, Field.val]
    rw [if_neg (by decide), if_neg (by decide)]
    unfold refFix
    rw [refCheck_eq]
    simp only [nextMillis, LogLine.count, Event.sampleRow, Event.statusRow, Event.fixRow, Event.graw, Option.toList_none,
      List.append_nil]
    split
    · rename_i h; simp at h
    · rename_i h
      simp only [Option.some.injEq] at h
      rw [h]
      simp
    · rename_i h
      simp only [Option.some.injEq] at h
      rw [h, if_pos (by simp at hG; omega)]
      simp
  | status ms batt temp a2 a3 maxLag minFree maxUsed maxOver gpsFlag fs1 fsIdle =>
    dsimp only [LogLine.isStatus] at hM
    have e := mapM_pyFloat [.dec ms, .dec batt, .dec temp,
            .dec a2, .dec a3, .int maxLag, .int minFree, .int maxUsed, .int maxOver, .int gpsFlag, .int fs1,
            .int fsIdle]
    unfold refRow LogLine.fields
    dsimp only
    rw [if_neg (by decide), if_pos (by decide)]
    unfold refData
    rw [e]
    simp only [List.map_cons, List.map_nil, Field.val]
    rw [if_neg (by decide), if_pos trivial]
    unfold refStatus npAssign
    rw [if_pos (by simp)]
    simp only
    rw [if_pos (by simp at hM; omega)]
    simp [nextMillis, LogLine.count, Event.sampleRow, Event.statusRow, Event.fixRow, Event.graw]
  | other body2 =>
    obtain rfl : body2 = body := by
      have := List.append_inj_left hb (by have := congrArg List.length hb; simpa [LogLine.text] using this)
      exact this
    have hr : refRow st (splitComma body2) = .ok st := by
      cases body2 with
      | nil => rfl
      | cons c cs =>
        have hc := hp.1.2.2 c (by simp)
        have hsp : ∃ p, (splitComma (c :: cs) = [] :: p) ∨ ∃ f, splitComma (c :: cs) = (c :: f) :: p := by
          have key : ∀ (l : List Nat) (cur : List Nat), ∃ f p, splitCommaGo cur l = (cur ++ f) :: p := by
            intro l
            induction l with
            | nil => intro cur; exact ⟨[], [], by simp [splitCommaGo]⟩
            | cons b l ih =>
              intro cur
              rw [splitCommaGo]
              by_cases h : b = 44
              · rw [if_pos h]; exact ⟨[], splitCommaGo [] l, by simp⟩
              · rw [if_neg h]
                obtain ⟨f, p, hfp⟩ := ih (cur ++ [b])
                exact ⟨b :: f, p, by rw [hfp]; simp⟩
          unfold splitComma
          rw [splitCommaGo]
          by_cases h : c = 44
          · rw [if_pos h]; exact ⟨_, .inl rfl⟩
          · rw [if_neg h]
            obtain ⟨f, p, hfp⟩ := key cs ([] ++ [c])
            exact ⟨p, .inr ⟨f, by rw [hfp]; simp⟩⟩
        obtain ⟨p, h | ⟨f, h⟩⟩ := hsp
        · rw [h]; rfl
        · rw [h]
          unfold refRow
          dsimp only
          rw [if_neg hc.1, if_neg (by tauto)]
    show refRow st (splitComma body2) = _
    rw [hr]
    simp [nextMillis, LogLine.count, Event.sampleRow, Event.statusRow, Event.fixRow, Event.graw]

theorem refFold : ∀ (ls : List LogLine) (st : RefState), (∀ l ∈ ls, l.Valid ∧ l.Plain) →
    st.D.length + ls.countP LogLine.isSample ≤ 750000 → st.M.length + ls.countP LogLine.isStatus ≤ 15000 →
    st.G.length + ls.countP LogLine.isFix ≤ 15000 →
    ∃ m, (csvRows (logText ls)).foldlM refRow st = .ok ⟨m, st.D ++ (timed st.millis ls).filterMap Event.sampleRow,
      st.M ++ (timed st.millis ls).filterMap Event.statusRow, st.G ++ (timed st.millis ls).filterMap Event.fixRow⟩ := by
  intro ls
  induction ls with
  | nil =>
    intro st _ _ _ _
    refine ⟨st.millis, ?_⟩
    have : csvRows (logText []) = [[[]]] := rfl
    rw [this]
    simp [timed]
    rfl
  | cons l ls ih =>
    intro st hv hD hM hG
    obtain ⟨body, hb, hpl, _⟩ := text_plain l (hv l (by simp))
    have ht : logText (l :: ls) = (body ++ [10]) ++ logText ls := by simp [logText, hb]
    rw [List.countP_cons] at hD hM hG
    rw [ht, csvRows_line body _ hpl, List.foldlM_cons,
      refRow_line l (hv l (by simp)) body hb st (by omega) (by omega) (by omega)]
    have hl : ∀ {α : Type} (o : Option α), o.toList.length ≤ 1 := by intro α o; cases o <;> simp
    have l1 : (Event.sampleRow ⟨nextMillis st.millis l, l⟩).toList.length ≤ if l.isSample = true then 1 else 0 := by
      cases l <;> simp [Event.sampleRow, LogLine.isSample]
    have l2 : (Event.statusRow ⟨nextMillis st.millis l, l⟩).toList.length ≤ if l.isStatus = true then 1 else 0 := by
      cases l <;> simp [Event.statusRow, LogLine.isStatus]
    have l3 : (Event.fixRow ⟨nextMillis st.millis l, l⟩).toList.length ≤ if l.isFix = true then 1 else 0 := by
      cases l <;> simp [Event.fixRow, Event.graw, LogLine.isFix]
    obtain ⟨m, hm⟩ := ih ⟨nextMillis st.millis l, st.D ++ (Event.sampleRow ⟨nextMillis st.millis l, l⟩).toList,
      st.M ++ (Event.statusRow ⟨nextMillis st.millis l, l⟩).toList, st.G ++ (Event.fixRow ⟨nextMillis st.millis l, l⟩).toList⟩
      (fun x hx => hv x (by simp [hx]))
      (by simp only [List.length_append]; omega) (by simp only [List.length_append]; omega)
      (by simp only [List.length_append]; omega)
    refine ⟨m, ?_⟩
    rw [timed_cons]
    refine Eq.trans hm ?_
    have hfm : ∀ {α : Type} (f : Event → Option α) (e : Event) (es : List Event), (e :: es).filterMap f
        = (f e).toList ++ es.filterMap f := by
      intro α f e es
      rw [List.filterMap_cons]
      cases f e <;> rfl
    simp only [hfm, List.append_assoc]

end Gemlog
