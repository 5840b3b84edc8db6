import Verif.Spec.Merging
import Verif.Props.Whole
import Verif.Props.GemCatDir

/-!
# C106: merged recordings are read back
-/

namespace Gemlog

/-! ## Files as lists of raw lines -/

/-- A line as `gem_cat` sees it. -/
def LogLine.raw : LogLine → RawLine
  | .sample ms step => .sample ms step
  | .letters x y => .letters x y
  | l => .other l.text.dropLast

theorem text_ends (l : LogLine) : ∃ body, l.text = body ++ [10] := by
  cases l with
  | sample ms step => exact ⟨_, rfl⟩
  | letters x y => exact ⟨[x, y], rfl⟩
  | fix ms lag yr mo day hr mn sec lat lon => exact ⟨_, rfl⟩
  | status ms batt temp a2 a3 maxLag minFree maxUsed maxOver gpsFlag fs1 fsIdle => exact ⟨_, rfl⟩
  | other body => exact ⟨_, rfl⟩

theorem raw_text (l : LogLine) : l.raw.text = l.text := by
  cases l with
  | sample ms step => rfl
  | letters x y => rfl
  | fix ms lag yr mo day hr mn sec lat lon =>
    obtain ⟨body, h⟩ := text_ends (.fix ms lag yr mo day hr mn sec lat lon)
    rw [LogLine.raw, RawLine.text, h, List.dropLast_concat]
    all_goals simp
  | status ms batt temp a2 a3 maxLag minFree maxUsed maxOver gpsFlag fs1 fsIdle =>
    obtain ⟨body, h⟩ := text_ends (.status ms batt temp a2 a3 maxLag minFree maxUsed maxOver gpsFlag fs1 fsIdle)
    rw [LogLine.raw, RawLine.text, h, List.dropLast_concat]
    all_goals simp
  | other body => simp [LogLine.raw, RawLine.text, LogLine.text]

theorem raw_step (e : Event) : e.line.raw.step = e.step := by
  unfold Event.step
  cases e.line <;> rfl

theorem raw_valid {l : LogLine} (h : l.Valid) : l.raw.Valid := by
  cases l with
  | sample ms step => exact h
  | letters x y => exact h
  | fix ms lag yr mo day hr mn sec lat lon =>
    simp only [LogLine.Valid, LogLine.text, lineG] at h
    simp only [LogLine.raw, LogLine.text, lineG, RawLine.Valid]
    rw [List.dropLast_concat]
    refine ⟨?_, ?_, ?_⟩
    · intro b hb
      rcases List.mem_cons.mp hb with rfl | hb
      · decide
      · rcases List.mem_cons.mp hb with rfl | hb
        · decide
        · exact (join_bytes _ b hb).2
    · simp only [List.length_append, List.length_cons, List.length_nil] at h ⊢
      omega
    · intro b hb
      simp at hb
      omega
  | status ms batt temp a2 a3 maxLag minFree maxUsed maxOver gpsFlag fs1 fsIdle =>
    simp only [LogLine.Valid, LogLine.text, lineM] at h
    simp only [LogLine.raw, LogLine.text, lineM, RawLine.Valid]
    rw [List.dropLast_concat]
    refine ⟨?_, ?_, ?_⟩
    · intro b hb
      rcases List.mem_cons.mp hb with rfl | hb
      · decide
      · rcases List.mem_cons.mp hb with rfl | hb
        · decide
        · exact (join_bytes _ b hb).2
    · simp only [List.length_append, List.length_cons, List.length_nil] at h ⊢
      omega
    · intro b hb
      simp at hb
      omega
  | other body =>
    simp only [LogLine.raw, LogLine.text, List.dropLast_concat, RawLine.Valid]
    exact ⟨h.1, h.2.1, fun b hb => ⟨(h.2.2 b hb).1, (h.2.2 b hb).2.2.2⟩⟩

theorem step_none_raw {e : Event} (h : e.step = none) : e.line.raw = .other e.line.text.dropLast := by
  unfold Event.step at h
  revert h
  cases e.line <;> simp [LogLine.raw]

theorem head_text : ∀ head : List Event, (((head.map fun e => e.line.text.dropLast).map (· ++ [10])).flatten) = textOf head := by
  intro head
  unfold textOf
  rw [List.map_map]
  congr 1
  apply List.map_congr_left
  intro e _
  obtain ⟨body, hb⟩ := text_ends e.line
  simp [hb]

theorem textOf_append (a b : List Event) : textOf (a ++ b) = textOf a ++ textOf b := by
  simp [textOf]

theorem textOf_line (e : Event) (b : List Event) : textOf (e :: b) = e.line.text ++ textOf b := by
  simp [textOf]

theorem fromSample_pre {pre : List Event} (h : ∀ e ∈ pre, e.step = none) (l : List Event) : fromSample (pre ++ l) = fromSample l := by
  unfold fromSample
  rw [List.dropWhile_append_of_pos (fun e he => by simp [h e he])]

/-- A file for merging is one `gem_cat` can use (helper). -/
theorem MergeFile.raw {es : List Event} (h : MergeFile es) :
    ∃ f : RawText, f.Good ∧ f.text = textOf es ∧ f.lines.length ≤ 65520000 ∧ f.pressures = pressuresOf es ∧
      ∃ T rest, fromSample es = ⟨T, .sample f.t f.first⟩ :: rest ∧ f.rest = rest.map (fun e => e.line.raw) ∧
        ∃ e0 pre, e0.line = .other (bytes "#GemCSV" ++ bytes f.version) ∧ es = e0 :: (pre ++ ⟨T, .sample f.t f.first⟩ :: rest) := by
  obtain ⟨v, T0, head, T, ms, step, rest, hv, hes, hhead, hms⟩ := h.shape
  have hp : runningSums 0 (step :: (rest.map fun e => e.line.raw).filterMap RawLine.step) = pressuresOf es := by
    have h1 : head.filterMap Event.step = [] := by
      rw [List.filterMap_eq_nil_iff]
      exact fun e he => (hhead e he).1
    have h2 : (rest.map fun e => e.line.raw).filterMap RawLine.step = rest.filterMap Event.step := by
      rw [List.filterMap_map]
      apply List.filterMap_congr
      intro e _
      exact raw_step e
    unfold pressuresOf
    rw [hes, h2, List.filterMap_cons]
    simp only [Event.step]
    rw [List.filterMap_append, h1, List.nil_append, List.filterMap_cons]
    rfl
  have hval : ∀ e ∈ head, e.line.raw.Valid := fun e he => raw_valid (h.valid e (by rw [hes]; simp [he]))
  refine ⟨⟨v, head.map fun e : Event => e.line.text.dropLast, ms, step, rest.map fun e : Event => e.line.raw⟩, ⟨⟨?_, hms, ?_, ?_, ?_⟩, hv⟩, ?_, ?_, hp, T, rest, ?_,
    rfl, _, head, rfl, hes⟩
  · intro l hl
    obtain ⟨e, he, rfl⟩ := List.mem_map.mp hl
    obtain ⟨h1, b, hb, hb32, hb10⟩ := hhead e he
    have hv := hval e he
    rw [step_none_raw h1] at hv
    refine ⟨⟨b, ?_, hb32⟩, hv.1, hv.2.1, hv.2.2⟩
    obtain ⟨body, hbody⟩ := text_ends e.line
    rw [hbody] at hb ⊢
    rw [List.dropLast_concat]
    simpa [hb10] using hb
  · intro l hl
    obtain ⟨e, he, rfl⟩ := List.mem_map.mp hl
    exact raw_valid (h.valid e (by rw [hes]; simp [he]))
  · unfold RawText.pressures
    rw [hp]
    exact h.range
  · obtain ⟨e, he, hst⟩ := h.status
    have hline : e.line.raw = .other e.line.text.dropLast ∧ e.line.text.dropLast.head? = some 77 ∧ e.step = none ∧ ∀ b, e.line ≠ .other b := by
      unfold Event.isStatus at hst
      unfold Event.step
      revert hst
      cases e.line <;> simp [LogLine.raw, LogLine.text, lineM]
    refine ⟨e.line.text.dropLast, ?_, hline.2.1⟩
    rw [hes] at he
    rcases List.mem_cons.mp he with rfl | he
    · exact absurd rfl (hline.2.2.2 _)
    · rcases List.mem_append.mp he with he | he
      · exact .inl (List.mem_map.mpr ⟨e, he, rfl⟩)
      · rcases List.mem_cons.mp he with rfl | he
        · simp [Event.isStatus] at hst
        · exact .inr (List.mem_map.mpr ⟨e, he, hline.1⟩)
  · unfold RawText.text
    rw [hes, textOf_line, textOf_append, textOf_line, ← head_text]
    simp only [LogLine.text, List.append_assoc]
    congr 6
    rw [List.map_map]
    apply List.map_congr_left
    intro e _
    exact raw_text e.line
  · have := h.length
    rw [hes] at this
    simp only [RawText.lines, List.length_append, List.length_cons, List.length_map] at this ⊢
    omega
  · rw [hes, ← List.cons_append, fromSample_pre]
    · unfold fromSample
      rw [List.dropWhile_cons_of_neg (by simp [Event.step])]
    · intro e he
      rcases List.mem_cons.mp he with rfl | he
      · rfl
      · exact (hhead e he).1

/-! ## Changing the steps -/

/-- The event without the change of pressure in a full sample line (helper). -/
def Event.blank (e : Event) : Event :=
  match e.line with
  | .sample ms _ => ⟨e.T, .sample ms 0⟩
  | _ => e

theorem blank_cases (e : Event) : e.blank = e ∨ ∃ T ms s, e = ⟨T, .sample ms s⟩ ∧ e.blank = ⟨T, .sample ms 0⟩ := by
  obtain ⟨T, l⟩ := e
  cases l with
  | sample ms s => exact .inr ⟨T, ms, s, rfl, rfl⟩
  | letters x y => exact .inl rfl
  | fix ms lag yr mo day hr mn sec lat lon => exact .inl rfl
  | status ms batt temp a2 a3 maxLag minFree maxUsed maxOver gpsFlag fs1 fsIdle => exact .inl rfl
  | other body => exact .inl rfl

theorem blank_T (e : Event) : e.blank.T = e.T := by
  rcases blank_cases e with h | ⟨T, ms, s, rfl, h⟩ <;> rw [h]

theorem blank_other (e : Event) : e.blank.isOther = e.isOther := by
  rcases blank_cases e with h | ⟨T, ms, s, rfl, h⟩ <;> rw [h]; rfl

theorem blank_fix (e : Event) : e.blank.isFix = e.isFix := by
  rcases blank_cases e with h | ⟨T, ms, s, rfl, h⟩ <;> rw [h]; rfl

theorem blank_status (e : Event) : e.blank.isStatus = e.isStatus := by
  rcases blank_cases e with h | ⟨T, ms, s, rfl, h⟩ <;> rw [h]; rfl

theorem blank_some (e : Event) : e.blank.step.isSome = e.step.isSome := by
  rcases blank_cases e with h | ⟨T, ms, s, rfl, h⟩ <;> rw [h]; rfl

theorem blank_fixAt (e : Event) (t : Int) : e.blank.FixAt t ↔ e.FixAt t := by
  rcases blank_cases e with h | ⟨T, ms, s, rfl, h⟩ <;> rw [h]; rfl

theorem blank_row (e : Event) : e.blank.statusRow = e.statusRow := by
  rcases blank_cases e with h | ⟨T, ms, s, rfl, h⟩ <;> rw [h]; rfl

theorem blank_point (e : Event) : e.blank.fixPoint = e.fixPoint := by
  rcases blank_cases e with h | ⟨T, ms, s, rfl, h⟩ <;> rw [h]; rfl

theorem filter_blank {p : Event → Bool} (hp : ∀ e : Event, p e.blank = p e) (es : List Event) :
    ((es.map Event.blank).filter p).map Event.T = (es.filter p).map Event.T := by
  rw [List.filter_map, List.map_map]
  have : (p ∘ Event.blank) = p := funext hp
  rw [this]
  apply List.map_congr_left
  intro e _
  exact blank_T e

theorem sampleTimes_blank (es : List Event) : sampleTimes (es.map Event.blank) = sampleTimes es :=
  filter_blank (p := fun e => e.step.isSome) blank_some es

theorem fixTimes_blank (es : List Event) : fixTimes (es.map Event.blank) = fixTimes es := filter_blank blank_fix es

theorem printed_blank : ∀ (es : List Event) (prev : Option Rat), TimesPrinted prev (es.map Event.blank) ↔ TimesPrinted prev es := by
  intro es
  induction es with
  | nil => intro prev; rfl
  | cons e es ih =>
    intro prev
    rw [List.map_cons]
    obtain ⟨T, l⟩ := e
    cases l <;> simp [Event.blank, TimesPrinted, ih]

theorem rows_blank (es : List Event) : (es.map Event.blank).filterMap Event.statusRow = es.filterMap Event.statusRow := by
  rw [List.filterMap_map]
  apply List.filterMap_congr
  intro e _
  exact blank_row e

theorem points_blank (es : List Event) : (es.map Event.blank).filterMap Event.fixPoint = es.filterMap Event.fixPoint := by
  rw [List.filterMap_map]
  apply List.filterMap_congr
  intro e _
  exact blank_point e

/-- A file that differs from a clean one only in the changes of pressure is clean (helper). -/
theorem clean_blank {a b start : Rat} {es js : List Event} (h : es.map Event.blank = js.map Event.blank) (hv : ∀ e ∈ es, e.line.Valid)
    (hc : CleanFile a b start js) : CleanFile a b start es := by
  have hs : sampleTimes es = sampleTimes js := by rw [← sampleTimes_blank, h, sampleTimes_blank]
  have hf : fixTimes es = fixTimes js := by rw [← fixTimes_blank, h, fixTimes_blank]
  have hn : (es.filter fun e => !e.isOther).map Event.T = (js.filter fun e => !e.isOther).map Event.T := by
    have key := filter_blank (p := fun e => !e.isOther) (fun e => by rw [blank_other])
    rw [← key es, h, key js]
  have hmem : ∀ e ∈ es, ∃ j ∈ js, j.blank = e.blank := by
    intro e he
    have : e.blank ∈ js.map Event.blank := by rw [← h]; exact List.mem_map_of_mem he
    obtain ⟨j, hj, e1⟩ := List.mem_map.mp this
    exact ⟨j, hj, e1⟩
  have hmem' : ∀ e ∈ js, ∃ j ∈ es, j.blank = e.blank := by
    intro e he
    have : e.blank ∈ es.map Event.blank := by rw [h]; exact List.mem_map_of_mem he
    obtain ⟨j, hj, e1⟩ := List.mem_map.mp this
    exact ⟨j, hj, e1⟩
  refine ⟨⟨hv, ?_, ?_, ?_, ?_, ?_, ?_, ?_, ?_, ?_, ?_⟩, ?_, ?_⟩
  · have := congrArg List.length h
    rw [List.length_map, List.length_map] at this
    rw [this]
    exact hc.length
  · rw [← printed_blank, h, printed_blank]
    exact hc.printed
  · rw [hn]; exact hc.near
  · rw [hs]; exact hc.samples
  · rw [hs]; exact hc.steady
  · obtain ⟨j, hj, h1⟩ := hc.status
    obtain ⟨e, he, h2⟩ := hmem' j hj
    exact ⟨e, he, by rw [← blank_status, h2, blank_status]; exact h1⟩
  · intro e he hfix
    obtain ⟨j, hj, h2⟩ := hmem e he
    obtain ⟨t, h3, h4⟩ := hc.fixes j hj (by rw [← blank_fix, h2, blank_fix]; exact hfix)
    refine ⟨t, ?_, ?_⟩
    · rw [← blank_fixAt, ← h2, blank_fixAt]; exact h3
    · rw [← blank_T, ← h2, blank_T]; exact h4
  · rw [hf]; exact hc.enough
  · rw [hf]; exact hc.increasing
  · rw [hf, hs]; exact hc.covers
  · unfold NearStart
    rw [hn]; exact hc.near_start
  · rw [hs]; exact hc.after

/-! ## The merged files -/

theorem joined_snoc {g : List (List Event)} (hg : g ≠ []) (f : List Event) : joinedLog (g ++ [f]) = joinedLog g ++ fromSample f := by
  cases g with
  | nil => exact absurd rfl hg
  | cons x g => simp [joinedLog]

/-- The text of a merged file is that of the events of the group, apart from the changes of pressure in the first samples (helper). -/
theorem built_events {env : CatEnv} {gt : List (List Nat)} {c : List Nat} (h : Built env gt c) :
    ∀ g : List (List Event), gt = g.map textOf → (∀ es ∈ g, MergeFile es) →
    ∃ es : List Event, c = textOf es ∧ es.map Event.blank = (joinedLog g).map Event.blank ∧ (∀ e ∈ es, e.line.Valid) ∧
      pressuresOf es = g.flatMap pressuresOf ∧
      (∃ p, g.getLast? = some p ∧ (pressuresOf p).getLast? = some (es.filterMap Event.step).sum) ∧
      ∃ x, g.head? = some x ∧ es.head? = x.head? := by
  induction h with
  | one f =>
    intro g hg hm
    cases g with
    | nil => simp at hg
    | cons r g =>
      cases g with
      | cons _ _ => simp at hg
      | nil =>
        simp only [List.map_cons, List.map_nil, List.cons.injEq, and_true] at hg
        have hr := hm r (by simp)
        refine ⟨r, hg, by simp [joinedLog], hr.valid, by simp, ⟨r, rfl, ?_⟩, r, rfl, rfl⟩
        unfold pressuresOf
        rw [runningSums_last]
        · simp
        · obtain ⟨v, T0, head, T, ms, step, rest, _, hes, _⟩ := hr.shape
          rw [hes]
          intro e
          rw [List.filterMap_eq_nil_iff] at e
          have := e ⟨T, .sample ms step⟩ (by simp)
          simp [Event.step] at this
  | @add gt p c f t h1 h2 h3 ih =>
    intro g hg hm
    obtain ⟨g', l2, rfl, hm1, hm2⟩ := List.map_eq_append_iff.mp hg.symm
    cases l2 with
    | nil => simp at hm2
    | cons r l2 =>
      cases l2 with
      | cons _ _ => simp at hm2
      | nil =>
        simp only [List.map_cons, List.map_nil, List.cons.injEq, and_true] at hm2
        obtain ⟨es, i1, i2, i3, i4, ⟨q, i5, i6⟩, x, i7, i8⟩ := ih g' hm1.symm (fun f hf => hm f (by simp [hf]))
        have hg' : g' ≠ [] := by rintro rfl; simp at i5
        have hp : p = textOf q := by
          rw [← hm1, List.getLast?_map, i5] at h2
          simpa using h2.symm
        obtain ⟨fq, q1, q2, q3, q4, _⟩ := (hm q (by simp [List.mem_of_getLast? i5])).raw
        obtain ⟨fr, r1, r2, r3, r4, T, rest, r5, r6, e0, pre, r7, r8⟩ := (hm r (by simp)).raw
        have htot : fq.total = (es.filterMap Event.step).sum := by
          have := fq.total_last
          rw [q4, i6] at this
          simpa using this.symm
        have hap := append_good env r1.1 q1.1 r1.2 q1.2 q3
        rw [q2, r2, ← hp, hm2, h3] at hap
        simp only [Except.ok.injEq] at hap
        have hstepr : r.filterMap Event.step = fr.first :: rest.filterMap Event.step := by
          have e1 : (fromSample r).filterMap Event.step = r.filterMap Event.step := by
            unfold fromSample
            conv_rhs => rw [← List.takeWhile_append_dropWhile (p := fun e : Event => e.step.isNone) (l := r)]
            rw [List.filterMap_append]
            have : (r.takeWhile fun e : Event => e.step.isNone).filterMap Event.step = [] := by
              rw [List.filterMap_eq_nil_iff]
              intro e he
              simpa using List.all_eq_true.mp List.all_takeWhile e he
            rw [this, List.nil_append]
          rw [← e1, r5, List.filterMap_cons]
          rfl
        refine ⟨es ++ ⟨T, .sample fr.t (fr.first - fq.total)⟩ :: rest, ?_, ?_, ?_, ?_, ⟨r, by simp, ?_⟩, x, ?_, ?_⟩
        · rw [i1, hap, textOf_append, textOf_line, r6]
          simp only [List.map_cons, List.flatten_cons, List.map_map, RawLine.text, LogLine.text]
          congr 2
          unfold textOf
          congr 1
          apply List.map_congr_left
          intro e _
          exact raw_text e.line
        · rw [joined_snoc hg', List.map_append, List.map_append, i2, r5]
          rfl
        · intro e he
          rcases List.mem_append.mp he with he | he
          · exact i3 e he
          · rcases List.mem_cons.mp he with rfl | he
            · show (lineD fr.t (fr.first - fq.total)).length ≤ 255
              apply lineD_time_length r1.1.time
              have := RawText.total_lt q1.1
              have := RawText.first_lt r1.1
              have e : (10 : Nat) ^ 21 = 10 * 10 ^ 20 := by norm_num
              omega
            · exact (hm r (by simp)).valid e (by rw [r8]; simp [he])
        · unfold pressuresOf
          rw [List.filterMap_append, runningSums_append, List.filterMap_cons, List.flatMap_append]
          have i4' := i4
          unfold pressuresOf at i4'
          rw [i4', ← htot]
          simp only [Event.step, runningSums, List.flatMap_cons, List.flatMap_nil, List.append_nil]
          rw [hstepr]
          simp only [runningSums]
          rw [show (0 : Int) + fq.total + (fr.first - fq.total) = 0 + fr.first from by ring]
        · unfold pressuresOf
          rw [hstepr, runningSums_last _ _ (by simp), List.filterMap_append, List.sum_append, ← htot, List.filterMap_cons]
          simp only [Event.step, List.sum_cons]
          congr 1
          ring
        · cases g' with
          | nil => exact absurd rfl hg'
          | cons y g' => simpa using i7
        · have : es ≠ [] := by
            rintro rfl
            have hx := hm x (by rw [List.mem_append]; exact .inl (List.mem_of_head? i7))
            obtain ⟨v, T0, head, T, ms, step, rest, _, hes, _⟩ := hx.shape
            rw [hes] at i8
            simp at i8
          rw [List.head?_append_of_ne_nil _ this]
          exact i8

theorem fromSample_times (es : List Event) : sampleTimes (fromSample es) = sampleTimes es := by
  unfold sampleTimes fromSample
  conv_rhs => rw [← List.takeWhile_append_dropWhile (p := fun e : Event => e.step.isNone) (l := es)]
  rw [List.filter_append]
  have : (es.takeWhile fun e : Event => e.step.isNone).filter (fun e => e.step.isSome) = [] := by
    rw [List.filter_eq_nil_iff]
    intro e he
    have := List.all_eq_true.mp List.all_takeWhile e he
    cases hs : e.step <;> simp_all
  rw [this, List.nil_append]

theorem sampleTimes_append (a b : List Event) : sampleTimes (a ++ b) = sampleTimes a ++ sampleTimes b := by
  simp [sampleTimes]

theorem joined_times : ∀ g : List (List Event), sampleTimes (joinedLog g) = g.flatMap sampleTimes := by
  have key : ∀ g : List (List Event), sampleTimes (g.flatMap fromSample) = g.flatMap sampleTimes := by
    intro g
    induction g with
    | nil => rfl
    | cons x g ih => rw [List.flatMap_cons, sampleTimes_append, ih, fromSample_times, List.flatMap_cons]
  intro g
  cases g with
  | nil => rfl
  | cons x g => rw [joinedLog, sampleTimes_append, key, List.flatMap_cons]

theorem zip_flatMap {α β γ : Type} (f : α → List β) (g : α → List γ) (h : ∀ x, (f x).length = (g x).length) :
    ∀ l : List α, (l.flatMap f).zip (l.flatMap g) = l.flatMap fun x => (f x).zip (g x) := by
  intro l
  induction l with
  | nil => rfl
  | cons x l ih => rw [List.flatMap_cons, List.flatMap_cons, List.flatMap_cons, List.zip_append (h x), ih]

theorem joined_record (a b : Rat) {g : List (List Event)} {es : List Event} (h1 : es.map Event.blank = (joinedLog g).map Event.blank)
    (h2 : pressuresOf es = g.flatMap pressuresOf) : trueRecord a b [es] = trueRecord a b g := by
  unfold trueRecord
  simp only [List.flatMap_cons, List.flatMap_nil, List.append_nil]
  rw [h2, ← sampleTimes_blank es, h1, sampleTimes_blank, joined_times, List.map_flatMap, zip_flatMap]
  intro es
  rw [List.length_map, pressures_length]

/-! ## The folder written -/

theorem outName_raw {i : Nat} {SN : List Nat} (hi : i < 10000) (h3 : SN.length = 3) : NamedRaw (outName i SN) i SN := by
  have hl : (padNum 4 i).length = 4 := padNum_length (k := 3) (by omega)
  have hd : ∀ b ∈ padNum 4 i, isDigit b = true := by
    intro b hb
    unfold padNum zeroPad at hb
    rcases List.mem_append.mp hb with hb | hb
    · rw [(List.mem_replicate.mp hb).2]; decide
    · exact natStr_digits i b hb
  have hv := digitsVal_padNum 4 i
  unfold outName
  change NamedRaw (bytes "FILE" ++ padNum 4 i ++ [46] ++ SN) i SN
  revert hl hd hv
  generalize padNum 4 i = ds
  intro hl hd hv
  match ds, hl with
  | [a, b, c, d], _ =>
    have ha := isDigit_iff.mp (hd a (by simp))
    have hb := isDigit_iff.mp (hd b (by simp))
    have hc := isDigit_iff.mp (hd c (by simp))
    have hd' := isDigit_iff.mp (hd d (by simp))
    simp only [digitsVal, List.foldl_cons, List.foldl_nil] at hv
    refine ⟨a - 48, b - 48, c - 48, d - 48, ?_, by omega, by omega, by omega, by omega, by omega, h3⟩
    rw [show 48 + (a - 48) = a by omega, show 48 + (b - 48) = b by omega, show 48 + (c - 48) = c by omega, show 48 + (d - 48) = d by omega]
    rfl

/-- The files `gem_cat` wrote are selected, in order (helper). -/
theorem merged_dir {outs : List (List Nat × List Nat)} {n : Nat} {SN : List Nat} (hn : n ≤ 10000) (h3 : SN.length = 3) (hT : SN ≠ bytes "TXT")
    (hnames : outs.map Prod.fst = (List.range n).map fun i => outName i SN) {content : Entry → List Nat} {dir : List Entry}
    (hdir : (dir.map fun e => (e.name, content e)).Perm outs) (hsize : ∀ e ∈ dir, 10 < e.size) {nums : List Int}
    (hnums : ∀ i < n, (i : Int) ∈ nums) :
    (findFiles dir SN nums).map (fun e => (e.name, content e)) = outs := by
  have hname : ∀ e ∈ dir, ∃ i < n, e.name = outName i SN := by
    intro e he
    have h1 : (e.name, content e) ∈ outs := hdir.mem_iff.mp (List.mem_map.mpr ⟨e, he, rfl⟩)
    have h2 : e.name ∈ outs.map Prod.fst := List.mem_map.mpr ⟨_, h1, rfl⟩
    rw [hnames] at h2
    obtain ⟨i, hi, e1⟩ := List.mem_map.mp h2
    exact ⟨i, List.mem_range.mp hi, e1.symm⟩
  have hsel : findFiles dir SN nums = sortEntries dir := by
    have hraw : dir.filter (fun e => isRawName e.name) = dir := by
      rw [List.filter_eq_self]
      intro e he
      obtain ⟨i, hi, e1⟩ := hname e he
      exact (isRawName_iff _).mpr ⟨i, SN, e1 ▸ outName_raw (by omega) h3⟩
    unfold findFiles
    rw [hraw, List.filter_filter]
    apply List.filter_eq_self.mpr
    intro e he
    rw [(sortEntries_perm dir).mem_iff] at he
    obtain ⟨i, hi, e1⟩ := hname e he
    obtain ⟨p1, p2⟩ := (outName_raw (SN := SN) (i := i) (by omega) h3).parts
    simp only [Bool.and_eq_true, decide_eq_true_eq]
    refine ⟨hsize e he, ?_, ?_⟩
    · rw [e1, p1]; exact hnums i hi
    · unfold slotSN
      rw [e1, p2, if_neg hT]
  rw [hsel]
  have hnd : (outs.map Prod.fst).Nodup := by
    rw [hnames]
    exact List.nodup_range.map fun a b h => padNum_injective (w := 4) (by simpa [outName, padNum] using h)
  refine List.Perm.eq_of_pairwise (le := fun x y => nameLe x.1 y.1 = true) ?_ ?_ ?_ (((sortEntries_perm dir).map _).trans hdir)
  · intro x y hx hy h1 h2
    have hx' : x ∈ outs := ((((sortEntries_perm dir).map _).trans hdir).mem_iff).mp hx
    exact List.inj_on_of_nodup_map hnd hx' hy (nameLe_antisymm _ _ h1 h2)
  · rw [List.pairwise_map]
    exact sortEntries_sorted dir
  · rw [← List.pairwise_map (f := Prod.fst) (R := fun x y => nameLe x y = true), hnames, List.pairwise_map]
    refine List.pairwise_lt_range.imp_of_mem ?_
    intro i j hi hj hij
    have hi := List.mem_range.mp hi
    have hj := List.mem_range.mp hj
    cases h : nameLe (outName i SN) (outName j SN) with
    | true => rfl
    | false =>
      exfalso
      rcases nameLe_num (outName_raw (by omega) h3) (outName_raw (by omega) h3) (nameLe_total _ _ h) with h | ⟨h, _⟩ <;> omega

/-- Merging files for merging succeeds and gives the files of the groups (helper). -/
theorem merge_events (env : CatEnv) (files before : List (List Event)) (groups : List (List (List Event))) (SN : List Nat)
    (hfiles : files = before ++ groups.flatten) (hm : ∀ es ∈ files, MergeFile es)
    (hsn : ∃ es, files.head? = some es ∧ env.readSN (textOf es) = some SN)
    (hb : ∀ es ∈ before, ¬ HasFix (textOf es)) (hg : Grouped (groups.flatten.map textOf) (groups.map (List.map textOf))) :
    ∃ outs, gemCatFiles env false (files.map textOf) = .ok outs ∧
      outs.map Prod.fst = (List.range groups.length).map (fun i => outName i SN) ∧
      List.Forall₂ (fun g o => Built env (g.map textOf) o) groups (outs.map Prod.snd) := by
  have hraw : ∃ l : List RawText, l.map RawText.text = files.map textOf ∧ ∀ f ∈ l, f.Good ∧ f.lines.length ≤ 65520000 := by
    clear hfiles hsn
    induction files with
    | nil => exact ⟨[], rfl, by simp⟩
    | cons es files ih =>
      obtain ⟨l, h1, h2⟩ := ih fun x hx => hm x (by simp [hx])
      obtain ⟨f, f1, f2, f3, _⟩ := (hm es (by simp)).raw
      refine ⟨f :: l, by rw [List.map_cons, List.map_cons, h1, f2], ?_⟩
      intro x hx
      rcases List.mem_cons.mp hx with rfl | hx
      · exact ⟨f1, f3⟩
      · exact h2 x hx
  obtain ⟨l, hl, hgood⟩ := hraw
  obtain ⟨es0, he0, hsn0⟩ := hsn
  obtain ⟨st', hst⟩ := catLoop_ok (env := env) (all := false) (sn := SN) l ⟨[], [], false⟩ hgood (.inl rfl)
  have hok : gemCatFiles env false (files.map textOf) = .ok st'.outs := by
    cases files with
    | nil => simp at he0
    | cons x files =>
      simp only [List.head?_cons, Option.some.injEq] at he0
      subst he0
      rw [hl] at hst
      unfold gemCatFiles
      simp only [List.map_cons, hsn0] at hst ⊢
      rw [hst]
      rfl
  obtain ⟨sn, be, af, gr, ⟨f0, k1, k2⟩, h2, h3, h4, h5, h6, h7⟩ := gemCat_built env _ _ hok
  have hsn' : sn = SN := by
    rw [List.head?_map, he0] at k1
    simp only [Option.map_some, Option.some.injEq] at k1
    rw [← k1, hsn0] at k2
    simpa using k2.symm
  subst hsn'
  have haf : af = groups.flatten.map textOf := by
    have e : be ++ af = before.map textOf ++ groups.flatten.map textOf := by rw [← h2, hfiles, List.map_append]
    have hfst : ∀ f ∈ (groups.flatten.map textOf).head?, HasFix f := by
      intro f hf
      rw [← hg.all] at hf
      cases hgr : groups.map (List.map textOf) with
      | nil => rw [hgr] at hf; simp at hf
      | cons g gs =>
        obtain ⟨y, hy, hfix⟩ := hg.starts g (by rw [hgr]; simp)
        rw [hgr, List.flatten_cons] at hf
        cases g with
        | nil => simp at hy
        | cons z g =>
          simp only [List.head?_cons, Option.some.injEq] at hy
          simp only [List.cons_append, List.head?_cons, Option.mem_some_iff] at hf
          rw [← hf, hy]
          exact hfix
    rw [List.append_eq_append_iff] at e
    rcases e with ⟨u, hu, hu2⟩ | ⟨u, hu, hu2⟩
    · cases u with
      | nil => simpa using hu2
      | cons y u =>
        exfalso
        have : y ∈ before.map textOf := by rw [hu]; simp
        obtain ⟨z, hz, rfl⟩ := List.mem_map.mp this
        exact hb z hz (h4 _ (by rw [hu2]; simp))
    · cases u with
      | nil => simpa using hu2.symm
      | cons y u =>
        exfalso
        exact h3 y (by rw [hu]; simp) (hfst y (by rw [hu2]; simp))
  rw [haf] at h5
  have hgr : gr = groups.map (List.map textOf) := C43_unique _ _ _ h5 hg
  refine ⟨st'.outs, hok, ?_, ?_⟩
  · rw [h6, hgr, List.length_map]
  · rw [hgr, List.forall₂_map_left_iff] at h7
    exact h7

/-! ## Reading the merged files -/

theorem exists_map {α β : Type} [DecidableEq α] : ∀ (xs : List α) (ys : List β) (_ : β), xs.Nodup → xs.length = ys.length → ∃ f : α → β, xs.map f = ys := by
  intro xs
  induction xs with
  | nil =>
    intro ys y0 _ h
    exact ⟨fun _ => y0, by rw [List.length_nil] at h; simp [List.eq_nil_of_length_eq_zero h.symm]⟩
  | cons x xs ih =>
    intro ys y0 hn hl
    cases ys with
    | nil => simp at hl
    | cons y ys =>
      rw [List.nodup_cons] at hn
      obtain ⟨f, hf⟩ := ih ys y0 hn.2 (by simpa using hl)
      refine ⟨fun z => if z = x then y else f z, ?_⟩
      rw [List.map_cons, if_pos rfl, ← hf]
      congr 1
      apply List.map_congr_left
      intro z hz
      refine if_neg ?_
      rintro rfl
      exact hn.1 hz

/-- What a merged file is, compared with its group (helper). -/
def Merges (es : List Event) (g : List (List Event)) : Prop :=
  es.map Event.blank = (joinedLog g).map Event.blank ∧ (∀ e ∈ es, e.line.Valid) ∧ pressuresOf es = g.flatMap pressuresOf ∧
    ∃ x, g.head? = some x ∧ es.head? = x.head?

theorem Merges.times {es : List Event} {g : List (List Event)} (h : Merges es g) : sampleTimes es = sampleTimes (joinedLog g) := by
  rw [← sampleTimes_blank, h.1, sampleTimes_blank]

theorem merges_follow {a b : Rat} {L : List (List Event)} {groups : List (List (List Event))} (h : List.Forall₂ Merges L groups) :
    ∀ start, FilesFollow a b start (groups.map joinedLog) → FilesFollow a b start L := by
  induction h with
  | nil => intro _ _; trivial
  | @cons es g L groups h1 _ ih =>
    intro start hf
    rw [List.map_cons] at hf
    refine ⟨clean_blank h1.1 h1.2.1 hf.1, ih _ ?_⟩
    have : endTime es = endTime (joinedLog g) := by unfold endTime; rw [h1.times]
    rw [this]
    exact hf.2

theorem merges_flatMap {β : Type} (f : List Event → List β) (hf : ∀ es, f (es.map Event.blank) = f es) {L : List (List Event)}
    {groups : List (List (List Event))} (h : List.Forall₂ Merges L groups) : L.flatMap f = (groups.map joinedLog).flatMap f := by
  induction h with
  | nil => rfl
  | @cons es g L groups h1 _ ih => rw [List.map_cons, List.flatMap_cons, List.flatMap_cons, ih, ← hf es, h1.1, hf]

theorem merges_clean {a b : Rat} {L : List (List Event)} {groups : List (List (List Event))} (h : List.Forall₂ Merges L groups)
    (hc : CleanRecording a b (groups.map joinedLog)) : CleanRecording a b L := by
  refine ⟨hc.rate, merges_follow h 0 hc.follow, ?_, ?_⟩
  · rw [merges_flatMap fixTimes fixTimes_blank h]; exact hc.fixes
  · rw [merges_flatMap sampleTimes sampleTimes_blank h]; exact hc.start

theorem merges_record {a b : Rat} {L : List (List Event)} {groups : List (List (List Event))} (h : List.Forall₂ Merges L groups) :
    trueRecord a b L = trueRecord a b groups.flatten := by
  induction h with
  | nil => rfl
  | @cons es g L groups h1 _ ih =>
    have e1 : trueRecord a b (es :: L) = trueRecord a b [es] ++ trueRecord a b L := by simp [trueRecord]
    have e2 : trueRecord a b (g ++ groups.flatten) = trueRecord a b g ++ trueRecord a b groups.flatten := by simp [trueRecord]
    rw [e1, ih, joined_record a b h1.1 h1.2.2.1, List.flatten_cons, e2]

/-- The files of the folder written by `gem_cat` are the texts of what happened during the groups (helper). -/
theorem merged_logs (env : CatEnv) (files before : List (List Event)) (groups : List (List (List Event))) (SN : List Nat)
    (hfiles : files = before ++ groups.flatten) (hm : ∀ es ∈ files, MergeFile es)
    (hsn : ∃ es, files.head? = some es ∧ env.readSN (textOf es) = some SN)
    (hb : ∀ es ∈ before, ¬ HasFix (textOf es)) (hg : Grouped (groups.flatten.map textOf) (groups.map (List.map textOf)))
    (hmany : groups.length ≤ 10000) (h3 : SN.length = 3) (hT : SN ≠ bytes "TXT") :
    ∃ outs, gemCatFiles env false (files.map textOf) = .ok outs ∧
      outs.map Prod.fst = (List.range groups.length).map (fun i => outName i SN) ∧
      ∀ (content : Entry → List Nat) (dir : List Entry) (nums : List Int), (dir.map fun e => (e.name, content e)).Perm outs →
        (∀ e ∈ dir, e.size = (content e).length) → (∀ i < groups.length, (i : Int) ∈ nums) →
        ∃ log : Entry → List Event, (∀ e ∈ findFiles dir SN nums, content e = textOf (log e)) ∧
          List.Forall₂ Merges ((findFiles dir SN nums).map log) groups ∧
          (∀ e ∈ findFiles dir SN nums, ∃ v ∈ ["0.85C", "0.9", "0.91", "1.10"], HasVersion v (log e)) ∧
          (findFiles dir SN nums).map Entry.name = (List.range groups.length).map (fun i => outName i SN) := by
  obtain ⟨outs, hok, hnames, hbuilt⟩ := merge_events env files before groups SN hfiles hm hsn hb hg
  refine ⟨outs, hok, hnames, ?_⟩
  intro content dir nums hdir hsize hnums
  -- the events of the merged files
  have hmg : ∀ g ∈ groups, ∀ es ∈ g, MergeFile es := by
    intro g hg es hes
    apply hm
    rw [hfiles]
    exact List.mem_append.mpr (.inr (List.mem_flatten.mpr ⟨g, hg, hes⟩))
  have hL : ∃ L : List (List Event), List.Forall₂ Merges L groups ∧ L.map textOf = outs.map Prod.snd ∧
      ∀ es ∈ L, ∃ v ∈ ["0.85C", "0.9", "0.91", "1.10"], HasVersion v es := by
    clear hfiles hsn hb hg hmany hnames hnums hok
    revert hbuilt hmg
    generalize outs.map Prod.snd = cs
    intro hbuilt hmg
    induction hbuilt with
    | nil => exact ⟨[], .nil, rfl, by simp⟩
    | @cons g c groups cs h1 _ ih =>
      obtain ⟨L, i1, i2, i3⟩ := ih fun x hx => hmg x (by simp [hx])
      obtain ⟨es, e1, e2, e3, e4, _, x, e6, e7⟩ := built_events h1 g rfl (hmg g (by simp))
      refine ⟨es :: L, .cons ⟨e2, e3, e4, x, e6, e7⟩ i1, by rw [List.map_cons, i2, e1], ?_⟩
      intro y hy
      rcases List.mem_cons.mp hy with rfl | hy
      · obtain ⟨v, T0, head, T, ms, step, rest, hv, hx, _⟩ := (hmg g (by simp) x (List.mem_of_head? e6)).shape
        rw [hx, List.head?_cons, List.head?_eq_some_iff] at e7
        obtain ⟨t, ht⟩ := e7
        refine ⟨v, ?_, _, t, ht, rfl⟩
        simp only [List.mem_cons, List.not_mem_nil, or_false] at hv ⊢
        tauto
      · exact i3 y hy
  obtain ⟨L, hML, hLt, hLv⟩ := hL
  have hlen10 : ∀ e ∈ dir, 10 < e.size := by
    intro e he
    rw [hsize e he]
    have h1 : (e.name, content e) ∈ outs := hdir.mem_iff.mp (List.mem_map.mpr ⟨e, he, rfl⟩)
    have h2 : content e ∈ L.map textOf := by rw [hLt]; exact List.mem_map.mpr ⟨_, h1, rfl⟩
    obtain ⟨es, hes, h4⟩ := List.mem_map.mp h2
    rw [← h4]
    obtain ⟨v, hv, e0, t, rfl, h5⟩ := hLv es hes
    rw [textOf_line, h5]
    have : 10 < (LogLine.other (bytes "#GemCSV" ++ bytes v)).text.length := by
      simp only [List.mem_cons, List.not_mem_nil, or_false] at hv
      rcases hv with rfl | rfl | rfl | rfl <;> decide +kernel
    rw [List.length_append]
    omega
  have hfind := merged_dir hmany h3 hT hnames hdir hlen10 hnums
  have hdirnd : ((findFiles dir SN nums).map fun e => (e.name, content e)).Nodup := by
    rw [hfind]
    have : (outs.map Prod.fst).Nodup := by
      rw [hnames]
      exact List.nodup_range.map fun a b h => padNum_injective (w := 4) (by simpa [outName, padNum] using h)
    exact this.of_map _
  have hlen : (findFiles dir SN nums).length = L.length := by
    have e1 := congrArg List.length hfind
    have e2 := congrArg List.length hLt
    rw [List.length_map] at e1
    rw [List.length_map, List.length_map] at e2
    omega
  obtain ⟨log, hlog⟩ := exists_map (findFiles dir SN nums) L [] (hdirnd.of_map _) hlen
  have hcont : ∀ e ∈ findFiles dir SN nums, content e = textOf (log e) := by
    have e : (findFiles dir SN nums).map content = (findFiles dir SN nums).map (fun e => textOf (log e)) := by
      have e1 := congrArg (List.map Prod.snd) hfind
      rw [List.map_map] at e1
      have e2 : (findFiles dir SN nums).map content = outs.map Prod.snd := e1
      rw [e2, ← hLt, ← hlog, List.map_map]
      rfl
    exact List.map_inj_left.mp e
  refine ⟨log, hcont, by rw [hlog]; exact hML, ?_, ?_⟩
  · intro e he
    exact hLv _ (by rw [← hlog]; exact List.mem_map.mpr ⟨e, he, rfl⟩)
  · have e1 := congrArg (List.map Prod.fst) hfind
    rw [List.map_map, hnames] at e1
    exact e1

/-- The folder written by `gem_cat` holds a recording without defects (helper). -/
theorem merged_setup (env : CatEnv) (files before : List (List Event)) (groups : List (List (List Event))) (SN : List Nat) (a b : Rat)
    (hfiles : files = before ++ groups.flatten) (hm : ∀ es ∈ files, MergeFile es)
    (hsn : ∃ es, files.head? = some es ∧ env.readSN (textOf es) = some SN)
    (hb : ∀ es ∈ before, ¬ HasFix (textOf es)) (hg : Grouped (groups.flatten.map textOf) (groups.map (List.map textOf)))
    (hne : groups ≠ []) (hmany : groups.length ≤ 10000) (h3 : SN.length = 3) (hT : SN ≠ bytes "TXT")
    (hclean : CleanRecording a b (groups.map joinedLog)) :
    ∃ outs, gemCatFiles env false (files.map textOf) = .ok outs ∧
      ∀ (content : Entry → List Nat) (dir : List Entry) (nums : List Int), (dir.map fun e => (e.name, content e)).Perm outs →
        (∀ e ∈ dir, e.size = (content e).length) → (∀ i < groups.length, (i : Int) ∈ nums) →
        ∃ first rest log v, findFiles dir SN nums = first :: rest ∧ (∀ e ∈ first :: rest, content e = textOf (log e)) ∧
          (first :: rest).length = groups.length ∧ CleanRecording a b ((first :: rest).map log) ∧
          v ∈ ["0.85C", "0.9", "0.91", "1.10"] ∧ HasVersion v (log first) ∧
          trueRecord a b ((first :: rest).map log) = trueRecord a b groups.flatten ∧
          ((first :: rest).flatMap fun e => (log e).filterMap Event.fixPoint) = (groups.map joinedLog).flatMap (List.filterMap Event.fixPoint) ∧
          ((first :: rest).flatMap fun e => (log e).filterMap Event.statusRow) = (groups.map joinedLog).flatMap (List.filterMap Event.statusRow) ∧
          ∀ e ∈ first :: rest, e ∈ dir := by
  obtain ⟨outs, hok, _, hlogs⟩ := merged_logs env files before groups SN hfiles hm hsn hb hg hmany h3 hT
  refine ⟨outs, hok, ?_⟩
  intro content dir nums hdir hsize hnums
  obtain ⟨log, hcont, hML, hLv, _⟩ := hlogs content dir nums hdir hsize hnums
  have hlen : (findFiles dir SN nums).length = groups.length := by
    have := hML.length_eq
    rwa [List.length_map] at this
  cases hff : findFiles dir SN nums with
  | nil =>
    rw [hff, List.length_nil] at hlen
    exact absurd (List.eq_nil_of_length_eq_zero hlen.symm) hne
  | cons first rest =>
    have hin : ∀ e ∈ first :: rest, e ∈ dir := by
      intro e he
      rw [← hff] at he
      exact ((mem_findFiles _ _ _ _).mp he).1
    rw [hff] at hcont hlen hML hLv
    obtain ⟨v, hv, hver⟩ := hLv first (by simp)
    refine ⟨first, rest, log, v, rfl, hcont, hlen, merges_clean hML hclean, hv, hver, merges_record hML, ?_, ?_, hin⟩
    · rw [← merges_flatMap _ points_blank hML, List.flatMap_map]
    · rw [← merges_flatMap _ rows_blank hML, List.flatMap_map]

open Classical in
/-- **C106.** Let the files of an instrument, from the first one with a fix on, be groups as `gem_cat` forms them, each of which, taken as a
whole, is a file without defects (single files need have no fixes at all). Then merging succeeds, and `read_gem` on the folder written reports
no problem and returns the true record of the original files: every sample of every file, in order, at its true UTC time, with its recorded
pressure. -/
theorem C106_read_back (env : CatEnv) (files before : List (List Event)) (groups : List (List (List Event))) (SN : List Nat) (a b : Rat)
    (hfiles : files = before ++ groups.flatten) (hm : ∀ es ∈ files, MergeFile es)
    (hsn : ∃ es, files.head? = some es ∧ env.readSN (textOf es) = some SN)
    (hb : ∀ es ∈ before, ¬ HasFix (textOf es)) (hg : Grouped (groups.flatten.map textOf) (groups.map (List.map textOf)))
    (hne : groups ≠ []) (hmany : groups.length ≤ 10000) (h3 : SN.length = 3) (n : Int) (hn : pyInt SN = some n)
    (hclean : CleanRecording a b (groups.map joinedLog)) :
    ∃ outs, gemCatFiles env false (files.map textOf) = .ok outs ∧
      ∀ (d : RawDisk) (dir : List Entry) (nums : List Int) (specs : Specs) (R : List (Rat × Int)),
        (dir.map fun e => (e.name, d.content e)).Perm outs → (∀ e ∈ dir, e.size = (d.content e).length) →
        (∀ i < groups.length, (i : Int) ∈ nums) → (∀ e ∈ dir, ∃ sn, d.readSN e = .ok sn) → (∀ e ∈ dir, d.adc e = 0 ∨ d.adc e = 1) →
        gemSpecs n = .ok specs → Reproduces d.fit → ReproducesLines d.fit → R = trueRecord a b groups.flatten →
        (∀ r ∈ runsOf (stamped R), r.headD 0 ≠ r.getLastD 0 → 1 / 100 ≤ r.getLastD 0 - r.headD 0) →
        ∃ g, readGem d.env dir SN nums true = .ok g ∧ g.problems = [] ∧ g.header.length = groups.length ∧
          g.gps.map (fun f => (f.msPPS, f.t, f.lat, f.lon)) = ((groups.map joinedLog).flatMap (List.filterMap Event.fixPoint)).map
            (fun p => (p.1, a + b * p.1, some p.2.1, some p.2.2)) ∧
          g.metadata.map (fun m => (m.1, m.2.1)) = ((groups.map joinedLog).flatMap (List.filterMap Event.statusRow)).map
            (fun p => (p.1, p.2.map some)) ∧
          List.Forall₂ (TraceOf d.spline (R.map fun p => (p.1, some (p.2 : Rat))))
            ((runsOf (stamped R)).filter fun r => decide (Resampled d.spline (R.map fun p => (p.1, some (p.2 : Rat))) r)) g.stream := by
  have hT : SN ≠ bytes "TXT" := by
    rintro rfl
    have : pyInt (bytes "TXT") = none := by decide +kernel
    rw [this] at hn
    simp at hn
  obtain ⟨outs, hok, hread⟩ := merged_setup env files before groups SN a b hfiles hm hsn hb hg hne hmany h3 hT hclean
  refine ⟨outs, hok, ?_⟩
  intro d dir nums specs R hdir hsize hnums hdsn hadc hspecs hfit hfit1 hR hruns
  obtain ⟨first, rest, log, v, e1, e2, e3, e4, e5, e6, e7, e8, e9, e10⟩ := hread d.content dir nums hdir hsize hnums
  obtain ⟨g, k1, k2, k3, _, k5, k6, k7⟩ := C65_read_back d dir SN nums log a b first rest e1 e2 e4 v e5 e6 (fun e he => hdsn e (e10 e he)) n hn specs
    hspecs (hadc first (e10 first (by simp))) hfit hfit1 R (by rw [e7]; exact hR) hruns
  rw [e8] at k5
  rw [e9] at k6
  exact ⟨g, k1, k2, k3.trans e3, k5, k6, k7⟩

/-- **C106, without gaps.** If moreover no two samples are more than 25 ms apart, the merged files are read as one trace, which starts within 5 ms of
the first sample, has a sample for each full 10 ms, and holds the values, rounded, of the spline through all the points recorded in the
original files. -/
theorem C106_gapless (env : CatEnv) (files before : List (List Event)) (groups : List (List (List Event))) (SN : List Nat) (a b : Rat)
    (hfiles : files = before ++ groups.flatten) (hm : ∀ es ∈ files, MergeFile es)
    (hsn : ∃ es, files.head? = some es ∧ env.readSN (textOf es) = some SN)
    (hb : ∀ es ∈ before, ¬ HasFix (textOf es)) (hg : Grouped (groups.flatten.map textOf) (groups.map (List.map textOf)))
    (hne : groups ≠ []) (hmany : groups.length ≤ 10000) (h3 : SN.length = 3) (n : Int) (hn : pyInt SN = some n)
    (hclean : CleanRecording a b (groups.map joinedLog)) (R : List (Rat × Int)) (hR : R = trueRecord a b groups.flatten) (t0 t1 : Rat)
    (h0 : (R.map Prod.fst).head? = some t0) (h1 : (R.map Prod.fst).getLast? = some t1) (hlong : 1 / 100 ≤ t1 - t0)
    (hgapless : (R.map Prod.fst).IsChain fun x y => y - x ≤ 25 / 1000) :
    ∃ outs, gemCatFiles env false (files.map textOf) = .ok outs ∧
      ∀ (d : RawDisk) (dir : List Entry) (nums : List Int) (specs : Specs) (f : Rat → Rat),
        (dir.map fun e => (e.name, d.content e)).Perm outs → (∀ e ∈ dir, e.size = (d.content e).length) →
        (∀ i < groups.length, (i : Int) ∈ nums) → (∀ e ∈ dir, ∃ sn, d.readSN e = .ok sn) → (∀ e ∈ dir, d.adc e = 0 ∨ d.adc e = 1) →
        gemSpecs n = .ok specs → Reproduces d.fit → ReproducesLines d.fit → d.spline (R.map fun p => (p.1, some (p.2 : Rat))) = some f →
        ∃ g tr, readGem d.env dir SN nums true = .ok g ∧ g.stream = [tr] ∧ |tr.time 0 - t0| ≤ 5 / 1000 ∧
          (tr.data.length : Int) = ⌊(t1 - t0) * 100⌋ ∧
          (NotHalf (t0 * 100) → ∀ k (hk : k < tr.data.length), tr.data[k] = npRound (f (tr.time k))) ∧ g.problems = [] := by
  have hT : SN ≠ bytes "TXT" := by
    rintro rfl
    have : pyInt (bytes "TXT") = none := by decide +kernel
    rw [this] at hn
    simp at hn
  obtain ⟨outs, hok, hread⟩ := merged_setup env files before groups SN a b hfiles hm hsn hb hg hne hmany h3 hT hclean
  refine ⟨outs, hok, ?_⟩
  intro d dir nums specs f hdir hsize hnums hdsn hadc hspecs hfit hfit1 hspline
  obtain ⟨first, rest, log, v, e1, e2, e3, e4, e5, e6, e7, e8, e9, e10⟩ := hread d.content dir nums hdir hsize hnums
  obtain ⟨g, tr, k1, k2, k3, k4, k5, k6, _⟩ := C65_gapless d dir SN nums log a b first rest e1 e2 e4 v e5 e6 (fun e he => hdsn e (e10 e he)) n hn specs
    hspecs (hadc first (e10 first (by simp))) hfit hfit1 R (by rw [e7]; exact hR) t0 t1 h0 h1 hlong hgapless f hspline
  exact ⟨g, tr, k1, k2, k3, k4, k5, k6⟩

/-! ## Two files, one of them without fixes -/

/-- A file with ten fixes and three samples. -/
def mergeLogA : List Event :=
  [⟨0, .other (bytes "#GemCSV0.9")⟩, ⟨0, .other (bytes "S,012")⟩,
   demoFixEvent (-4 * 9765625 / 10000) ⟨false, 4285, bytes "75", by decide +kernel⟩ 0,
   demoFixEvent (-3 * 9765625 / 10000) ⟨false, 5262, bytes "3125", by decide +kernel⟩ 1,
   demoFixEvent (-2 * 9765625 / 10000) ⟨false, 6238, bytes "875", by decide +kernel⟩ 2,
   demoFixEvent (-1 * 9765625 / 10000) ⟨false, 7215, bytes "4375", by decide +kernel⟩ 3,
   demoFixEvent (0 * 9765625 / 10000) ⟨false, 0, bytes "", by decide +kernel⟩ 4,
   demoFixEvent (1 * 9765625 / 10000) ⟨false, 976, bytes "5625", by decide +kernel⟩ 5,
   demoFixEvent (2 * 9765625 / 10000) ⟨false, 1953, bytes "125", by decide +kernel⟩ 6,
   demoFixEvent (3 * 9765625 / 10000) ⟨false, 2929, bytes "6875", by decide +kernel⟩ 7,
   demoFixEvent (4 * 9765625 / 10000) ⟨false, 3906, bytes "25", by decide +kernel⟩ 8,
   demoFixEvent (5 * 9765625 / 10000) ⟨false, 4882, bytes "8125", by decide +kernel⟩ 9,
   ⟨800, .sample (.ofNat 800) 100⟩, ⟨810, .sample (.ofNat 810) (-5)⟩, ⟨821, .letters 110 112⟩,
   ⟨825, .status (.ofNat 825) (.ofNat 4) (.ofNat 20) (.ofNat 0) (.ofNat 0) 1 2 3 4 1 6 7⟩]

/-- The file after it, without fixes. -/
def mergeLogB : List Event :=
  [⟨0, .other (bytes "#GemCSV0.9")⟩, ⟨0, .other (bytes "S,012")⟩, ⟨831, .sample (.ofNat 831) 97⟩, ⟨841, .letters 109 109⟩,
   ⟨845, .status (.ofNat 845) (.ofNat 4) (.ofNat 20) (.ofNat 0) (.ofNat 0) 1 2 3 4 1 6 7⟩]

theorem mergeLogA_ok : MergeFile mergeLogA := by
  refine ⟨⟨"0.9", 0, (mergeLogA.drop 1).take 11, 800, .ofNat 800, 100, mergeLogA.drop 13, by decide, by rfl, by decide +kernel, by decide +kernel⟩,
    by decide +kernel, by decide +kernel, by decide +kernel, by decide +kernel⟩

theorem mergeLogB_ok : MergeFile mergeLogB := by
  refine ⟨⟨"0.9", 0, (mergeLogB.drop 1).take 1, 831, .ofNat 831, 97, mergeLogB.drop 3, by decide, by rfl, by decide +kernel, by decide +kernel⟩,
    by decide +kernel, by decide +kernel, by decide +kernel, by decide +kernel⟩

theorem mergeFixAt (T : Rat) (ms : Dec) (sec : Nat) (h : sec < 10) (hT : T = ((sec : Rat) - 4) * 9765625 / 10000) :
    (demoFixEvent T ms sec).FixAt (1577836800 + sec) ∧
      ((1577836800 + sec : Int) : Rat) = 1577836804 + 1024 / 1000000 * (demoFixEvent T ms sec).T := by
  refine ⟨(demoFixAt (sec * 9765625 / 10000) ms sec h rfl).1, ?_⟩
  unfold demoFixEvent
  rw [hT]
  push_cast
  ring

theorem merge_clean : CleanRecording 1577836804 (1024 / 1000000) ([[mergeLogA, mergeLogB]].map joinedLog) := by
  have hj : [[mergeLogA, mergeLogB]].map joinedLog = [mergeLogA ++ mergeLogB.drop 2] := by
    simp only [List.map_cons, List.map_nil, joinedLog, List.flatMap_cons, List.flatMap_nil, List.append_nil]
    rfl
  rw [hj]
  refine ⟨by norm_num, ⟨⟨⟨by decide +kernel, by decide +kernel, ?_, by decide +kernel, by decide +kernel, by decide +kernel, by decide +kernel,
    ?_, by decide +kernel, by decide +kernel, by decide +kernel⟩, by unfold NearStart; decide +kernel, by decide +kernel⟩, trivial⟩, by decide +kernel, ?_⟩
  · have w : ∀ (T s : Rat) (k : Int), 0 ≤ s → s < 8192 → T = s + k * 8192 → WrappedReading 8192 T s := fun T s k h1 h2 h3 => ⟨h1, h2, k, h3⟩
    unfold mergeLogA mergeLogB demoFixEvent
    simp only [List.drop_succ_cons, List.drop_zero, List.cons_append, List.nil_append, TimesPrinted]
    refine ⟨w _ _ (-1) ?_ ?_ ?_, w _ _ (-1) ?_ ?_ ?_, w _ _ (-1) ?_ ?_ ?_, w _ _ (-1) ?_ ?_ ?_, w _ _ 0 ?_ ?_ ?_, w _ _ 0 ?_ ?_ ?_, w _ _ 0 ?_ ?_ ?_,
      w _ _ 0 ?_ ?_ ?_, w _ _ 0 ?_ ?_ ?_, w _ _ 0 ?_ ?_ ?_, w _ _ 0 ?_ ?_ ?_, w _ _ 0 ?_ ?_ ?_, ⟨810, rfl, ?_⟩, w _ _ 0 ?_ ?_ ?_, w _ _ 0 ?_ ?_ ?_,
      ⟨831, rfl, ?_⟩, w _ _ 0 ?_ ?_ ?_, trivial⟩ <;> decide +kernel
  · intro e he hfix
    unfold mergeLogA mergeLogB at he
    simp only [List.drop_succ_cons, List.drop_zero, List.cons_append, List.nil_append, List.mem_cons, List.not_mem_nil, or_false] at he
    rcases he with rfl | rfl | rfl | rfl | rfl | rfl | rfl | rfl | rfl | rfl | rfl | rfl | rfl | rfl | rfl | rfl | rfl | rfl | rfl
    iterate 2 exact absurd hfix (by simp [Event.isFix])
    iterate 10 exact ⟨_, mergeFixAt _ _ _ (by decide) (by norm_num)⟩
    all_goals exact absurd hfix (by simp [Event.isFix])
  · intro x y z l h
    have : ([mergeLogA ++ mergeLogB.drop 2].flatMap sampleTimes) = [800, 810, 821, 831, 841] := by decide +kernel
    rw [this] at h
    simp only [List.cons.injEq] at h
    obtain ⟨rfl, rfl, -⟩ := h
    left; norm_num

theorem merge_grouped : Grouped ([[mergeLogA, mergeLogB]].flatten.map textOf) ([[mergeLogA, mergeLogB]].map (List.map textOf)) := by
  have hA : HasFix (textOf mergeLogA) :=
    .inr ⟨(textOf mergeLogA).take 16, (textOf mergeLogA).drop 18, by decide +kernel⟩
  have hB : ¬ HasFix (textOf mergeLogB) := by
    rintro (h | ⟨x, y, h⟩)
    · exact absurd h (by decide +kernel)
    · have key : ∀ (l x y : List Nat), l = x ++ 10 :: 71 :: y → (l.zip l.tail).contains (10, 71) = true := by
        intro l x
        induction x generalizing l with
        | nil => rintro y rfl; simp
        | cons c x ih =>
          rintro y rfl
          have := ih _ y rfl
          rw [List.cons_append]
          cases hx : x ++ 10 :: 71 :: y with
          | nil => simp at hx
          | cons u v =>
            rw [hx] at this
            simp only [List.tail_cons] at this ⊢
            rw [List.zip_cons_cons, List.contains_cons, this, Bool.or_true]
      have := key _ x y h
      exact absurd this (by decide +kernel)
  refine ⟨rfl, ?_, ?_, by simp⟩
  · intro g hg
    simp only [List.map_cons, List.map_nil, List.mem_singleton] at hg
    exact ⟨_, by rw [hg]; rfl, hA⟩
  · intro g hg
    simp only [List.map_cons, List.map_nil, List.mem_singleton] at hg
    rw [hg]
    simp [hB]

/-- The hypotheses of `C106_gapless` hold for the two files: merged, they are read as one trace of four samples. -/
example : ∃ out, gemCatFiles ⟨true, [], [], fun _ => .error .corrupt, fun _ => .error .corrupt, fun _ => some (bytes "012")⟩ false
      [textOf mergeLogA, textOf mergeLogB] = .ok [(bytes "FILE0000.012", out)] ∧
    ∃ g tr, readGem (RawDisk.env ⟨fun _ => out, fun _ _ => .error .other, fun _ _ => .error .other, fun _ => .ok "012", fun _ => 0, [], [], false,
        1800000000, idealFit, flatSpline⟩) [⟨bytes "FILE0000.012", out.length, .str (bytes "012")⟩] (bytes "012") [0] true = .ok g ∧
      g.stream = [tr] ∧ tr.data.length = 4 := by
  have hrec : trueRecord 1577836804 (1024 / 1000000) [[mergeLogA, mergeLogB]].flatten =
    [(1577836804 + 1024 / 1000000 * (800 + 893 / 100), 100), (1577836804 + 1024 / 1000000 * (810 + 893 / 100), 95),
     (1577836804 + 1024 / 1000000 * (821 + 893 / 100), 98), (1577836804 + 1024 / 1000000 * (831 + 893 / 100), 97),
     (1577836804 + 1024 / 1000000 * (841 + 893 / 100), 97)] := by decide +kernel
  obtain ⟨outs, h1, h2⟩ := C106_gapless ⟨true, [], [], fun _ => .error .corrupt, fun _ => .error .corrupt, fun _ => some (bytes "012")⟩
    [mergeLogA, mergeLogB] [] [[mergeLogA, mergeLogB]] (bytes "012") 1577836804 (1024 / 1000000) rfl
    (by intro es hes; simp only [List.mem_cons, List.not_mem_nil, or_false] at hes; rcases hes with rfl | rfl; exacts [mergeLogA_ok, mergeLogB_ok])
    ⟨mergeLogA, rfl, rfl⟩ (by simp) merge_grouped (by simp) (by simp) (by decide +kernel) 12 (by decide +kernel) merge_clean _ rfl
    (1577836804 + 1024 / 1000000 * (800 + 893 / 100)) (1577836804 + 1024 / 1000000 * (841 + 893 / 100)) (by rw [hrec]; rfl) (by rw [hrec]; rfl)
    (by norm_num) (by rw [hrec]; decide +kernel)
  have hlen : outs.map Prod.fst = [bytes "FILE0000.012"] := by
    obtain ⟨outs', o1, o2, _⟩ := merge_events ⟨true, [], [], fun _ => .error .corrupt, fun _ => .error .corrupt, fun _ => some (bytes "012")⟩
      [mergeLogA, mergeLogB] [] [[mergeLogA, mergeLogB]] (bytes "012") rfl
      (by intro es hes; simp only [List.mem_cons, List.not_mem_nil, or_false] at hes; rcases hes with rfl | rfl; exacts [mergeLogA_ok, mergeLogB_ok])
      ⟨mergeLogA, rfl, rfl⟩ (by simp) merge_grouped
    rw [h1, Except.ok.injEq] at o1
    rw [o1, o2]
    decide +kernel
  obtain ⟨o, rfl⟩ : ∃ o, outs = [o] := by
    have : outs.length = 1 := by rw [← List.length_map (f := Prod.fst), hlen]; rfl
    exact List.length_eq_one_iff.mp this
  obtain ⟨nm, out⟩ := o
  simp only [List.map_cons, List.map_nil, List.cons.injEq, and_true] at hlen
  subst hlen
  refine ⟨out, h1, ?_⟩
  obtain ⟨g, tr, e1, e2, _, e4, _⟩ := h2 ⟨fun _ => out, fun _ _ => .error .other, fun _ _ => .error .other, fun _ => .ok "012", fun _ => 0, [], [], false,
        1800000000, idealFit, flatSpline⟩ [⟨bytes "FILE0000.012", out.length, .str (bytes "012")⟩] [0] (specsOf (7 / 10)) (fun _ => 7)
    (by simp) (by simp) (by simp) (by simp) (by simp) (by decide +kernel) idealFit_reproduces idealFit_line (by rw [hrec]; rfl)
  refine ⟨g, tr, e1, e2, ?_⟩
  have : ⌊((1577836804 + 1024 / 1000000 * (841 + 893 / 100)) - (1577836804 + 1024 / 1000000 * (800 + 893 / 100)) : Rat) * 100⌋ = 4 := by
    decide +kernel
  rw [this] at e4
  exact_mod_cast e4

end Gemlog
