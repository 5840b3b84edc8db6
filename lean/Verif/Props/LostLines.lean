import Verif.Spec.LostLines
import Verif.Props.WholeConvert

/-!
# C103: lines lost from a recording

The remaining lines are themselves a recording without defects, but with other times for some samples (`spoil`). So everything proved about reading and converting such
recordings holds for them.
-/

namespace Gemlog

/-- The remaining lines with the times they seem to have; `c`: true time of the sample before, `r`: the time it seems to have. -/
def spoil : Rat → Rat → List (Event × Fate) → List Event
  | _, _, [] => []
  | c, r, (e, .kept) :: l =>
    if e.isFull then e :: spoil e.T e.T l
    else if e.step.isSome then ⟨r + (e.T - c), e.line⟩ :: spoil e.T (r + (e.T - c)) l
    else e :: spoil c r l
  | c, r, (e, .lost) :: l => spoil (if e.step.isSome then e.T else c) r l
  | c, r, (e, .junk body) :: l => ⟨e.T, .other body⟩ :: spoil (if e.step.isSome then e.T else c) r l

/-- A file as the remaining lines show it. -/
def spoilt (l : List (Event × Fate)) : List Event := spoil (firstTime (l.map Prod.fst)) (firstTime (l.map Prod.fst)) l

theorem full_step {e : Event} (h : e.isFull = true) : e.step.isSome = true := by
  rcases e with ⟨T, line⟩
  cases line <;> simp_all [Event.isFull, Event.step]

theorem step_not_other {e : Event} (h : e.step.isSome = true) : e.isOther = false ∧ e.isFix = false ∧ e.isStatus = false := by
  rcases e with ⟨T, line⟩
  cases line <;> simp_all [Event.step, Event.isOther, Event.isFix, Event.isStatus]

/-! ## Texts, validity and length -/

theorem textOf_cons (e : Event) (es : List Event) : textOf (e :: es) = e.line.text ++ textOf es := rfl

theorem damagedText_spoil : ∀ (l : List (Event × Fate)) (c r : Rat), damagedText l = textOf (spoil c r l) := by
  intro l
  induction l with
  | nil => intro c r; rfl
  | cons q l ih =>
    intro c r
    rcases q with ⟨e, f⟩
    cases f with
    | kept =>
      unfold damagedText spoil
      split
      · rw [textOf_cons, ← ih]
      · split
        · rw [textOf_cons, ← ih]
        · rw [textOf_cons, ← ih]
    | lost => unfold damagedText spoil; exact ih _ _
    | junk body =>
      unfold damagedText spoil
      rw [textOf_cons, ← ih]
      rfl

theorem spoil_valid : ∀ (l : List (Event × Fate)) (c r : Rat), (∀ q ∈ l, q.1.line.Valid) →
    (∀ q ∈ l, ∀ body, q.2 = .junk body → (LogLine.other body).Valid) → ∀ e ∈ spoil c r l, e.line.Valid := by
  intro l
  induction l with
  | nil => intro c r _ _ e he; simp [spoil] at he
  | cons q l ih =>
    intro c r h1 h2 x hx
    have t1 := fun q hq => h1 q (List.mem_cons_of_mem _ hq)
    have t2 := fun q hq => h2 q (List.mem_cons_of_mem _ hq)
    have h3 := h1 q List.mem_cons_self
    have h4 := h2 q List.mem_cons_self
    rcases q with ⟨e, f⟩
    cases f with
    | kept =>
      unfold spoil at hx
      split at hx
      · rcases List.mem_cons.mp hx with rfl | hx
        · exact h3
        · exact ih _ _ t1 t2 x hx
      · split at hx
        · rcases List.mem_cons.mp hx with rfl | hx
          · exact h3
          · exact ih _ _ t1 t2 x hx
        · rcases List.mem_cons.mp hx with rfl | hx
          · exact h3
          · exact ih _ _ t1 t2 x hx
    | lost => unfold spoil at hx; exact ih _ _ t1 t2 x hx
    | junk body =>
      unfold spoil at hx
      rcases List.mem_cons.mp hx with rfl | hx
      · exact h4 body rfl
      · exact ih _ _ t1 t2 x hx

theorem spoil_length : ∀ (l : List (Event × Fate)) (c r : Rat), (spoil c r l).length ≤ l.length := by
  intro l
  induction l with
  | nil => intro c r; simp [spoil]
  | cons q l ih =>
    intro c r
    rcases q with ⟨e, f⟩
    cases f with
    | kept =>
      unfold spoil
      split
      · simpa using ih _ _
      · split <;> simpa using ih _ _
    | lost => unfold spoil; exact le_trans (ih _ _) (by simp)
    | junk body => unfold spoil; simpa using ih _ _

/-! ## Times printed -/

theorem printed_skip {e : Event} (h : e.step.isSome = false) (hp : e.isOther = false ∨ e.isOther = true) {prev : Option Rat} {es : List Event}
    (hw : TimesPrinted prev (e :: es)) : TimesPrinted prev es ∧ ∀ prev' es', TimesPrinted prev' es' → TimesPrinted prev' (e :: es') := by
  rcases e with ⟨T, line⟩
  cases line with
  | sample ms step => simp [Event.step] at h
  | letters x y => simp [Event.step] at h
  | fix => exact ⟨hw.2, fun _ _ h' => ⟨hw.1, h'⟩⟩
  | status => exact ⟨hw.2, fun _ _ h' => ⟨hw.1, h'⟩⟩
  | other => exact ⟨hw, fun _ _ h' => h'⟩

theorem printed_full {e : Event} (h : e.isFull = true) {prev : Option Rat} {es : List Event} (hw : TimesPrinted prev (e :: es)) :
    TimesPrinted (some e.T) es ∧ ∀ prev' es', TimesPrinted (some e.T) es' → TimesPrinted prev' (e :: es') := by
  rcases e with ⟨T, line⟩
  cases line with
  | sample ms step => exact ⟨hw.2, fun _ _ h' => ⟨hw.1, h'⟩⟩
  | letters x y => simp [Event.isFull] at h
  | fix => simp [Event.isFull] at h
  | status => simp [Event.isFull] at h
  | other => simp [Event.isFull] at h

theorem printed_letters {e : Event} (h : e.isFull = false) (hs : e.step.isSome = true) {prev : Option Rat} {es : List Event}
    (hw : TimesPrinted prev (e :: es)) : ∃ c, prev = some c ∧ TimesPrinted (some e.T) es ∧
      ∀ r es', TimesPrinted (some (r + (e.T - c))) es' → TimesPrinted (some r) (⟨r + (e.T - c), e.line⟩ :: es') := by
  rcases e with ⟨T, line⟩
  cases line with
  | sample ms step => simp [Event.isFull] at h
  | letters x y =>
    obtain ⟨⟨c, hc, hT⟩, hw⟩ := hw
    refine ⟨c, hc, hw, ?_⟩
    intro r es' h'
    refine ⟨⟨r, rfl, ?_⟩, h'⟩
    dsimp only at hT ⊢
    linarith
  | fix => simp [Event.step] at hs
  | status => simp [Event.step] at hs
  | other => simp [Event.step] at hs

theorem printed_sample {e : Event} (hs : e.step.isSome = true) {prev : Option Rat} {es : List Event}
    (hw : TimesPrinted prev (e :: es)) : TimesPrinted (some e.T) es := by
  cases h : e.isFull with
  | true => exact (printed_full h hw).1
  | false =>
    obtain ⟨c, -, h2, -⟩ := printed_letters h hs hw
    exact h2

theorem spoil_printed : ∀ (l : List (Event × Fate)) (c r : Rat), TimesPrinted (some c) (l.map Prod.fst) → TimesPrinted (some r) (spoil c r l) := by
  intro l
  induction l with
  | nil => intro c r _; trivial
  | cons q l ih =>
    intro c r h
    rcases q with ⟨e, f⟩
    rw [List.map_cons] at h
    have hlost : TimesPrinted (some (if e.step.isSome then e.T else c)) (l.map Prod.fst) := by
      cases hs : e.step.isSome with
      | true => simpa using printed_sample hs h
      | false => simpa using (printed_skip hs (by cases e.isOther <;> simp) h).1
    cases f with
    | kept =>
      unfold spoil
      cases hf : e.isFull with
      | true =>
        rw [if_pos rfl]
        exact (printed_full hf h).2 _ _ (ih _ _ (printed_full hf h).1)
      | false =>
        rw [if_neg (by simp)]
        cases hs : e.step.isSome with
        | true =>
          rw [if_pos rfl]
          obtain ⟨c', hc, h2, h3⟩ := printed_letters hf hs h
          obtain rfl := Option.some.inj hc
          exact h3 _ _ (ih _ _ h2)
        | false =>
          rw [if_neg (by simp)]
          have := printed_skip hs (by cases e.isOther <;> simp) h
          exact this.2 _ _ (ih _ _ this.1)
    | lost => unfold spoil; exact ih _ _ hlost
    | junk body =>
      unfold spoil
      exact ih _ _ hlost

theorem spoil_printed_start : ∀ (pre : List (Event × Fate)) (e : Event) (post : List (Event × Fate)) (c r : Rat), (∀ q ∈ pre, q.1.step = none) →
    e.step.isSome = true → TimesPrinted none ((pre ++ (e, Fate.kept) :: post).map Prod.fst) →
    e.isFull = true ∧ TimesPrinted none (spoil c r (pre ++ (e, Fate.kept) :: post)) := by
  intro pre
  induction pre with
  | nil =>
    intro e post c r _ hs h
    rw [List.nil_append, List.map_cons] at h
    have hf : e.isFull = true := by
      cases hf : e.isFull with
      | true => rfl
      | false =>
        obtain ⟨c', hc, -⟩ := printed_letters hf hs h
        cases hc
    refine ⟨hf, ?_⟩
    rw [List.nil_append]
    unfold spoil
    rw [if_pos hf]
    exact (printed_full hf h).2 _ _ (spoil_printed _ _ _ (printed_full hf h).1)
  | cons q pre ih =>
    intro e post c r hpre hs h
    rcases q with ⟨e', f⟩
    have hn : e'.step.isSome = false := by rw [hpre (e', f) List.mem_cons_self]; rfl
    have hnf : e'.isFull = false := by
      cases hf : e'.isFull with
      | false => rfl
      | true => rw [full_step hf] at hn; cases hn
    rw [List.cons_append, List.map_cons] at h
    have hk := printed_skip hn (by cases e'.isOther <;> simp) h
    obtain ⟨a, b⟩ := ih e post c r (fun q hq => hpre q (List.mem_cons_of_mem _ hq)) hs hk.1
    refine ⟨a, ?_⟩
    rw [List.cons_append]
    cases f with
    | kept =>
      unfold spoil
      rw [if_neg (by rw [hnf]; simp), if_neg (by rw [hn]; simp)]
      exact hk.2 _ _ b
    | lost =>
      unfold spoil
      rw [if_neg (by rw [hn]; simp)]
      exact b
    | junk body =>
      unfold spoil
      rw [if_neg (by rw [hn]; simp)]
      exact b

/-! ## Samples -/

theorem sampleTimes_cons_some {e : Event} (h : e.step.isSome = true) (es : List Event) : sampleTimes (e :: es) = e.T :: sampleTimes es := by
  unfold sampleTimes
  rw [List.filter_cons_of_pos (by simpa using h), List.map_cons]

theorem sampleTimes_cons_none {e : Event} (h : e.step.isSome = false) (es : List Event) : sampleTimes (e :: es) = sampleTimes es := by
  unfold sampleTimes
  rw [List.filter_cons_of_neg (by simp [h])]

theorem spoil_samples : ∀ (l : List (Event × Fate)) (c r : Rat) (p m : Int),
    sampleTimes (spoil c r l) = (survivors (c - r) c p m l).map (fun s => s.time - s.early) ∧
    runningSums (p - m) ((spoil c r l).filterMap Event.step) = (survivors (c - r) c p m l).map (fun s => s.pressure - s.missing) := by
  intro l
  induction l with
  | nil => intro c r p m; exact ⟨rfl, rfl⟩
  | cons q l ih =>
    intro c r p m
    rcases q with ⟨e, f⟩
    cases hs : e.step with
    | none =>
      have hn : e.step.isSome = false := by rw [hs]; rfl
      have hnf : e.isFull = false := by
        cases hf : e.isFull with
        | false => rfl
        | true => rw [full_step hf] at hn; cases hn
      have hsv : survivors (c - r) c p m ((e, f) :: l) = survivors (c - r) c p m l := by
        conv_lhs => unfold survivors
        rw [hs]
      rw [hsv]
      cases f with
      | kept =>
        unfold spoil
        rw [if_neg (by rw [hnf]; simp), if_neg (by rw [hn]; simp), sampleTimes_cons_none hn, List.filterMap_cons_none hs]
        exact ih c r p m
      | lost =>
        unfold spoil
        rw [if_neg (by rw [hn]; simp)]
        exact ih c r p m
      | junk body =>
        unfold spoil
        rw [if_neg (by rw [hn]; simp), sampleTimes_cons_none rfl, List.filterMap_cons_none rfl]
        exact ih c r p m
    | some d =>
      have hn : e.step.isSome = true := by rw [hs]; rfl
      have hgone : ∀ f, f ≠ Fate.kept → survivors (c - r) c p m ((e, f) :: l) = survivors (e.T - r) e.T (p + d) (m + d) l := by
        intro f hf
        conv_lhs => unfold survivors
        rw [hs]
        dsimp only
        have : c - r + (e.T - c) = e.T - r := by ring
        cases f with
        | kept => exact absurd rfl hf
        | lost => dsimp only; rw [this]
        | junk body => dsimp only; rw [this]
      have hpm : p + d - (m + d) = p - m := by ring
      cases f with
      | kept =>
        have hsv : survivors (c - r) c p m ((e, Fate.kept) :: l) = if e.isFull = true then ⟨e.T, p + d, 0, m⟩ :: survivors 0 e.T (p + d) m l
            else ⟨e.T, p + d, c - r, m⟩ :: survivors (c - r) e.T (p + d) m l := by
          conv_lhs => unfold survivors
          rw [hs]
        have hpd : p + d - m = p - m + d := by ring
        rw [hsv]
        unfold spoil
        cases hf : e.isFull with
        | true =>
          rw [if_pos rfl, if_pos rfl, sampleTimes_cons_some hn, List.filterMap_cons_some hs, List.map_cons, List.map_cons]
          have := ih e.T e.T (p + d) m
          rw [sub_self, hpd] at this
          refine ⟨?_, ?_⟩
          · rw [this.1]; simp
          · unfold runningSums
            rw [this.2, hpd]
        | false =>
          rw [if_neg (by simp), if_pos hn, if_neg (by simp), sampleTimes_cons_some (e := ⟨r + (e.T - c), e.line⟩) hn, List.map_cons, List.map_cons]
          have hstep : ((⟨r + (e.T - c), e.line⟩ : Event).step) = some d := hs
          rw [List.filterMap_cons_some hstep]
          have := ih e.T (r + (e.T - c)) (p + d) m
          have hcr : e.T - (r + (e.T - c)) = c - r := by ring
          rw [hcr, hpd] at this
          refine ⟨?_, ?_⟩
          · rw [this.1]
            congr 1
            ring
          · unfold runningSums
            rw [this.2, hpd]
      | lost =>
        rw [hgone _ (by simp)]
        unfold spoil
        rw [if_pos hn, ← hpm]
        exact ih _ _ _ _
      | junk body =>
        rw [hgone _ (by simp)]
        unfold spoil
        rw [if_pos hn, sampleTimes_cons_none rfl, List.filterMap_cons_none rfl, ← hpm]
        exact ih _ _ _ _

/-- The survivors are the samples whose lines are kept, with their true times and pressures. -/
theorem survivors_true : ∀ (l : List (Event × Fate)) (early prev : Rat) (p m : Int),
    (survivors early prev p m l).map (fun s => (s.time, s.pressure)) = keptSamples p l := by
  intro l
  induction l with
  | nil => intros; rfl
  | cons q l ih =>
    intro early prev p m
    rcases q with ⟨e, f⟩
    unfold survivors keptSamples
    cases e.step with
    | none => exact ih _ _ _ _
    | some d =>
      cases f with
      | kept =>
        dsimp only
        rw [if_pos rfl]
        split
        · rw [List.map_cons, ih]
        · rw [List.map_cons, ih]
      | lost =>
        dsimp only
        rw [if_neg (by simp)]
        exact ih _ _ _ _
      | junk body =>
        dsimp only
        rw [if_neg (by simp)]
        exact ih _ _ _ _

/-! ## Distances -/

theorem spoil_chains : ∀ (l : List (Event × Fate)) (c r x : Rat), Around c (l.map Prod.fst) → BriefLoss (c - r) c l → r ≤ c → c ≤ r + 800 →
    r - 500 ≤ x → x ≤ c + 500 →
    (x :: ((spoil c r l).filter fun e => !e.isOther).map Event.T).IsChain (fun x y => y - x < 4096 ∧ -4096 < y - x) ∧
    (r :: sampleTimes (spoil c r l)).IsChain (fun x y => 0 ≤ y - x ∧ y - x ≤ 1000) := by
  intro l
  induction l with
  | nil => intros; exact ⟨List.isChain_singleton _, List.isChain_singleton _⟩
  | cons q l ih =>
    intro c r x ha hb h1 h2 h3 h4
    rcases q with ⟨e, f⟩
    rw [List.map_cons] at ha
    unfold Around at ha
    unfold BriefLoss at hb
    cases hs : e.step.isSome with
    | false =>
      rw [hs, if_neg (by simp)] at ha hb
      have hnf : e.isFull = false := by
        cases hf : e.isFull with
        | false => rfl
        | true => rw [full_step hf] at hs; cases hs
      cases f with
      | kept =>
        unfold spoil
        rw [if_neg (by rw [hnf]; simp), if_neg (by rw [hs]; simp), sampleTimes_cons_none hs]
        cases ho : e.isOther with
        | true =>
          rw [List.filter_cons_of_neg (by simp [ho])]
          exact ih c r x ha.2 hb h1 h2 h3 h4
        | false =>
          rw [List.filter_cons_of_pos (by simp [ho]), List.map_cons]
          obtain ⟨w1, w2⟩ := ha.1 ho
          obtain ⟨k1, k2⟩ := ih c r e.T ha.2 hb h1 h2 (by linarith) (by linarith)
          refine ⟨List.isChain_cons_cons.mpr ⟨⟨by linarith, by linarith⟩, k1⟩, k2⟩
      | lost =>
        unfold spoil
        rw [if_neg (by rw [hs]; simp)]
        exact ih c r x ha.2 hb h1 h2 h3 h4
      | junk body =>
        unfold spoil
        rw [if_neg (by rw [hs]; simp), sampleTimes_cons_none rfl, List.filter_cons_of_neg (by simp [Event.isOther])]
        exact ih c r x ha.2 hb h1 h2 h3 h4
    | true =>
      rw [hs, if_pos rfl] at ha hb
      obtain ⟨⟨g1, g2⟩, ha⟩ := ha
      have ho := (step_not_other hs).1
      cases f with
      | kept =>
        rw [if_pos rfl] at hb
        unfold spoil
        cases hf : e.isFull with
        | true =>
          rw [hf, if_pos rfl] at hb
          rw [if_pos rfl, sampleTimes_cons_some hs, List.filter_cons_of_pos (by simp [ho]), List.map_cons]
          obtain ⟨k1, k2⟩ := ih e.T e.T e.T ha (by rw [sub_self]; exact hb) le_rfl (by linarith) (by linarith) (by linarith)
          exact ⟨List.isChain_cons_cons.mpr ⟨⟨by linarith, by linarith⟩, k1⟩, List.isChain_cons_cons.mpr ⟨⟨by linarith, by linarith⟩, k2⟩⟩
        | false =>
          rw [hf, if_neg (by simp)] at hb
          rw [if_neg (by simp), if_pos hs, sampleTimes_cons_some (e := ⟨r + (e.T - c), e.line⟩) hs, List.filter_cons_of_pos (by simpa [Event.isOther] using ho), List.map_cons]
          have hcr : e.T - (r + (e.T - c)) = c - r := by ring
          obtain ⟨k1, k2⟩ := ih e.T (r + (e.T - c)) (r + (e.T - c)) ha (by rw [hcr]; exact hb) (by linarith) (by linarith) (by linarith) (by linarith)
          exact ⟨List.isChain_cons_cons.mpr ⟨⟨by dsimp only; linarith, by dsimp only; linarith⟩, k1⟩,
            List.isChain_cons_cons.mpr ⟨⟨by dsimp only; linarith, by dsimp only; linarith⟩, k2⟩⟩
      | lost =>
        rw [if_neg (by simp)] at hb
        unfold spoil
        rw [if_pos hs]
        have hcr : c - r + (e.T - c) = e.T - r := by ring
        rw [hcr] at hb
        exact ih e.T r x ha hb.2 (by linarith) (by linarith [hb.1]) h3 (by linarith)
      | junk body =>
        rw [if_neg (by simp)] at hb
        unfold spoil
        rw [if_pos hs, sampleTimes_cons_none rfl, List.filter_cons_of_neg (by simp [Event.isOther])]
        have hcr : c - r + (e.T - c) = e.T - r := by ring
        rw [hcr] at hb
        exact ih e.T r x ha hb.2 (by linarith) (by linarith [hb.1]) h3 (by linarith)

/-- The last sample seems at most 800 ms early. -/
theorem spoil_last : ∀ (l : List (Event × Fate)) (c r : Rat), Around c (l.map Prod.fst) → BriefLoss (c - r) c l → r ≤ c → c ≤ r + 800 →
    (sampleTimes (spoil c r l)).getLastD r ≤ (sampleTimes (l.map Prod.fst)).getLastD c ∧
    (sampleTimes (l.map Prod.fst)).getLastD c ≤ (sampleTimes (spoil c r l)).getLastD r + 800 := by
  intro l
  induction l with
  | nil => intro c r _ _ h1 h2; exact ⟨h1, h2⟩
  | cons q l ih =>
    intro c r ha hb h1 h2
    rcases q with ⟨e, f⟩
    rw [List.map_cons] at ha ⊢
    unfold Around at ha
    unfold BriefLoss at hb
    have hd : ∀ (x y : Rat) (m : List Rat), (x :: m).getLastD y = m.getLastD x := by
      intro x y m
      cases m <;> rfl
    cases hs : e.step.isSome with
    | false =>
      rw [hs, if_neg (by simp)] at ha hb
      have hnf : e.isFull = false := by
        cases hf : e.isFull with
        | false => rfl
        | true => rw [full_step hf] at hs; cases hs
      rw [sampleTimes_cons_none hs]
      cases f with
      | kept =>
        unfold spoil
        rw [if_neg (by rw [hnf]; simp), if_neg (by rw [hs]; simp), sampleTimes_cons_none hs]
        exact ih c r ha.2 hb h1 h2
      | lost =>
        unfold spoil
        rw [if_neg (by rw [hs]; simp)]
        exact ih c r ha.2 hb h1 h2
      | junk body =>
        unfold spoil
        rw [if_neg (by rw [hs]; simp), sampleTimes_cons_none rfl]
        exact ih c r ha.2 hb h1 h2
    | true =>
      rw [hs, if_pos rfl] at ha hb
      obtain ⟨⟨g1, g2⟩, ha⟩ := ha
      rw [sampleTimes_cons_some hs, hd]
      cases f with
      | kept =>
        rw [if_pos rfl] at hb
        unfold spoil
        cases hf : e.isFull with
        | true =>
          rw [hf, if_pos rfl] at hb
          rw [if_pos rfl, sampleTimes_cons_some hs, hd]
          exact ih e.T e.T ha (by rw [sub_self]; exact hb) le_rfl (by linarith)
        | false =>
          rw [hf, if_neg (by simp)] at hb
          rw [if_neg (by simp), if_pos hs, sampleTimes_cons_some (e := ⟨r + (e.T - c), e.line⟩) hs, hd]
          have hcr : e.T - (r + (e.T - c)) = c - r := by ring
          exact ih e.T (r + (e.T - c)) ha (by rw [hcr]; exact hb) (by linarith) (by linarith)
      | lost =>
        rw [if_neg (by simp)] at hb
        unfold spoil
        rw [if_pos hs]
        have hcr : c - r + (e.T - c) = e.T - r := by ring
        rw [hcr] at hb
        exact ih e.T r ha hb.2 (by linarith) (by linarith [hb.1])
      | junk body =>
        rw [if_neg (by simp)] at hb
        unfold spoil
        rw [if_pos hs, sampleTimes_cons_none rfl]
        have hcr : c - r + (e.T - c) = e.T - r := by ring
        rw [hcr] at hb
        exact ih e.T r ha hb.2 (by linarith) (by linarith [hb.1])

/-! ## Fixes and status lines -/

/-- The lines that are kept. -/
def keptEvents (l : List (Event × Fate)) : List Event := (l.filter fun q => q.2 = Fate.kept).map Prod.fst

theorem spoil_filter (P : Event → Bool) (hP : ∀ e, e.step.isSome = true → P e = false) (hO : ∀ T body, P ⟨T, .other body⟩ = false) :
    ∀ (l : List (Event × Fate)) (c r : Rat), (spoil c r l).filter P = (keptEvents l).filter P := by
  intro l
  induction l with
  | nil => intros; rfl
  | cons q l ih =>
    intro c r
    rcases q with ⟨e, f⟩
    unfold keptEvents
    cases f with
    | kept =>
      rw [List.filter_cons_of_pos (by simp), List.map_cons]
      unfold spoil
      cases hf : e.isFull with
      | true =>
        have := hP e (full_step hf)
        rw [if_pos rfl, List.filter_cons_of_neg (by simp [this]), List.filter_cons_of_neg (by simp [this])]
        exact ih _ _
      | false =>
        rw [if_neg (by simp)]
        cases hs : e.step.isSome with
        | true =>
          have h1 := hP e hs
          have h2 := hP ⟨r + (e.T - c), e.line⟩ hs
          rw [if_pos rfl, List.filter_cons_of_neg (by simp [h2]), List.filter_cons_of_neg (by simp [h1])]
          exact ih _ _
        | false =>
          rw [if_neg (by simp), List.filter_cons, List.filter_cons]
          split
          · rw [ih]; rfl
          · exact ih _ _
    | lost =>
      rw [List.filter_cons_of_neg (by simp)]
      unfold spoil
      exact ih _ _
    | junk body =>
      rw [List.filter_cons_of_neg (by simp)]
      unfold spoil
      rw [List.filter_cons_of_neg (by simp [hO])]
      exact ih _ _

theorem spoil_fixes (l : List (Event × Fate)) (c r : Rat) : (spoil c r l).filter Event.isFix = (keptEvents l).filter Event.isFix :=
  spoil_filter _ (fun _ h => (step_not_other h).2.1) (fun _ _ => rfl) l c r

theorem spoil_status (l : List (Event × Fate)) (c r : Rat) : (spoil c r l).filter Event.isStatus = (keptEvents l).filter Event.isStatus :=
  spoil_filter _ (fun _ h => (step_not_other h).2.2) (fun _ _ => rfl) l c r

theorem keptEvents_sublist (l : List (Event × Fate)) : (keptEvents l).Sublist (l.map Prod.fst) :=
  List.filter_sublist.map _

theorem filterMap_of_filter {β : Type} (f : Event → Option β) (P : Event → Bool) (h : ∀ e, P e = false → f e = none) :
    ∀ es : List Event, es.filterMap f = (es.filter P).filterMap f := by
  intro es
  induction es with
  | nil => rfl
  | cons e es ih =>
    cases hP : P e with
    | true => rw [List.filter_cons_of_pos hP, List.filterMap_cons, List.filterMap_cons, ih]
    | false => rw [List.filter_cons_of_neg (by simp [hP]), List.filterMap_cons_none (h e hP), ih]

theorem spoil_fixPoints (l : List (Event × Fate)) (c r : Rat) : (spoil c r l).filterMap Event.fixPoint = (keptEvents l).filterMap Event.fixPoint := by
  have h : ∀ e : Event, e.isFix = false → e.fixPoint = none := by
    rintro ⟨T, line⟩ h
    cases line <;> simp_all [Event.isFix, Event.fixPoint]
  rw [filterMap_of_filter _ _ h, spoil_fixes, ← filterMap_of_filter _ _ h]

theorem spoil_statusRows (l : List (Event × Fate)) (c r : Rat) : (spoil c r l).filterMap Event.statusRow = (keptEvents l).filterMap Event.statusRow := by
  have h : ∀ e : Event, e.isStatus = false → e.statusRow = none := by
    rintro ⟨T, line⟩ h
    cases line <;> simp_all [Event.isStatus, Event.statusRow]
  rw [filterMap_of_filter _ _ h, spoil_status, ← filterMap_of_filter _ _ h]

/-! ## The remaining lines are a sound file -/

theorem firstTime_split (pre : List (Event × Fate)) (e : Event) (f : Fate) (post : List (Event × Fate)) (hpre : ∀ q ∈ pre, q.1.step = none)
    (he : e.step.isSome = true) : firstTime ((pre ++ (e, f) :: post).map Prod.fst) = e.T := by
  induction pre with
  | nil =>
    unfold firstTime
    rw [List.nil_append, List.map_cons, sampleTimes_cons_some he]
    rfl
  | cons q pre ih =>
    have := ih (fun q hq => hpre q (List.mem_cons_of_mem _ hq))
    unfold firstTime at this ⊢
    rw [List.cons_append, List.map_cons, sampleTimes_cons_none (by rw [hpre q List.mem_cons_self]; rfl)]
    exact this

theorem spoil_split (pre : List (Event × Fate)) (e : Event) (post : List (Event × Fate)) (c r : Rat) (hpre : ∀ q ∈ pre, q.1.step = none)
    (he : e.isFull = true) : sampleTimes (spoil c r (pre ++ (e, Fate.kept) :: post)) = e.T :: sampleTimes (spoil e.T e.T post) := by
  induction pre with
  | nil =>
    rw [List.nil_append]
    conv_lhs => unfold spoil
    rw [if_pos he, sampleTimes_cons_some (full_step he)]
  | cons q pre ih =>
    have ih' := ih (fun q hq => hpre q (List.mem_cons_of_mem _ hq))
    have hn := hpre q List.mem_cons_self
    rcases q with ⟨e', f⟩
    replace hn : e'.step.isSome = false := by rw [hn]; rfl
    have hnf : e'.isFull = false := by
      cases hf : e'.isFull with
      | false => rfl
      | true => rw [full_step hf] at hn; cases hn
    rw [List.cons_append]
    cases f with
    | kept =>
      conv_lhs => unfold spoil
      rw [if_neg (by rw [hnf]; simp), if_neg (by rw [hn]; simp), sampleTimes_cons_none hn]
      exact ih'
    | lost =>
      conv_lhs => unfold spoil
      rw [if_neg (by rw [hn]; simp)]
      exact ih'
    | junk body =>
      conv_lhs => unfold spoil
      rw [if_neg (by rw [hn]; simp), sampleTimes_cons_none rfl]
      exact ih'

/-- The first data line that is kept is within 500 ms of the first sample. -/
theorem spoil_head (pre : List (Event × Fate)) (e : Event) (post : List (Event × Fate)) (r : Rat) (hpre : ∀ q ∈ pre, q.1.step = none)
    (he : e.isFull = true) (ha : Around e.T ((pre ++ (e, Fate.kept) :: post).map Prod.fst)) :
    ∀ x ∈ (((spoil e.T r (pre ++ (e, Fate.kept) :: post)).filter fun e => !e.isOther).map Event.T).head?, -500 ≤ x - e.T ∧ x - e.T ≤ 500 := by
  induction pre with
  | nil =>
    rw [List.nil_append]
    unfold spoil
    rw [if_pos he, List.filter_cons_of_pos (by simp [(step_not_other (full_step he)).1])]
    intro x hx
    obtain rfl : e.T = x := by simpa using hx
    rw [sub_self]
    norm_num
  | cons q pre ih =>
    have hn := hpre q List.mem_cons_self
    rcases q with ⟨e', f⟩
    have hn : e'.step.isSome = false := by rw [hn]; rfl
    have hnf : e'.isFull = false := by
      cases hf : e'.isFull with
      | false => rfl
      | true => rw [full_step hf] at hn; cases hn
    rw [List.cons_append] at ha ⊢
    rw [List.map_cons] at ha
    unfold Around at ha
    rw [hn, if_neg (by simp)] at ha
    have ih' := ih (fun q hq => hpre q (List.mem_cons_of_mem _ hq)) ha.2
    cases f with
    | kept =>
      unfold spoil
      rw [if_neg (by rw [hnf]; simp), if_neg (by rw [hn]; simp)]
      cases ho : e'.isOther with
      | true =>
        rw [List.filter_cons_of_neg (by simp [ho])]
        exact ih'
      | false =>
        rw [List.filter_cons_of_pos (by simp [ho])]
        intro x hx
        obtain rfl : e'.T = x := by simpa using hx
        exact ha.1 ho
    | lost =>
      unfold spoil
      rw [if_neg (by rw [hn]; simp)]
      exact ih'
    | junk body =>
      unfold spoil
      rw [if_neg (by rw [hn]; simp), List.filter_cons_of_neg (by simp [Event.isOther])]
      exact ih'

theorem filter_ends {α : Type} (P : α → Bool) (L : List α) (h1 : ∀ q ∈ L.head?, P q = true) (h2 : ∀ q ∈ L.getLast?, P q = true) :
    (L.filter P).head? = L.head? ∧ (L.filter P).getLast? = L.getLast? := by
  constructor
  · cases L with
    | nil => rfl
    | cons a L => rw [List.filter_cons_of_pos (h1 a (by simp))]; rfl
  · rcases List.eq_nil_or_concat L with rfl | ⟨init, x, rfl⟩
    · rfl
    · rw [List.concat_eq_append] at h2 ⊢
      rw [List.filter_append, List.filter_cons_of_pos (h2 x (by simp))]
      simp

theorem kept_fixTimes (l : List (Event × Fate)) (c r : Rat) :
    fixTimes (spoil c r l) = ((l.filter fun q => q.1.isFix).filter fun q => q.2 = Fate.kept).map fun q => q.1.T := by
  unfold fixTimes
  rw [spoil_fixes]
  unfold keptEvents
  rw [List.filter_map, List.map_map, List.filter_filter, List.filter_filter]
  have : (fun q : Event × Fate => (Event.isFix ∘ Prod.fst) q && decide (q.2 = Fate.kept)) = fun q => decide (q.2 = Fate.kept) && q.1.isFix := by
    funext q
    exact Bool.and_comm _ _
  rw [this]
  rfl

theorem all_fixTimes (l : List (Event × Fate)) : fixTimes (l.map Prod.fst) = (l.filter fun q => q.1.isFix).map fun q => q.1.T := by
  unfold fixTimes
  rw [List.filter_map, List.map_map]
  rfl

theorem getLastD_ne {l : List Rat} (h : l ≠ []) (x y : Rat) : l.getLastD x = l.getLastD y := by
  cases l with
  | nil => exact absurd rfl h
  | cons a l => rfl

theorem isChain_tail' {α : Type} {R : α → α → Prop} {x : α} {l : List α} (h : (x :: l).IsChain R) : l.IsChain R := by
  cases l with
  | nil => exact .nil
  | cons a l => exact (List.isChain_cons_cons.mp h).2

theorem spoilt_sound {a b : Rat} {l : List (Event × Fate)} (hs : SoundFile a b (l.map Prod.fst)) (hl : FewLost l)
    (ha : Around (firstTime (l.map Prod.fst)) (l.map Prod.fst)) :
    SoundFile a b (spoilt l) ∧ firstTime (spoilt l) = firstTime (l.map Prod.fst) ∧
      (endTime (spoilt l) ≤ endTime (l.map Prod.fst) ∧ endTime (l.map Prod.fst) ≤ endTime (spoilt l) + 800) ∧
      ∀ x ∈ (((spoilt l).filter fun e => !e.isOther).map Event.T).head?, -500 ≤ x - firstTime (l.map Prod.fst) ∧ x - firstTime (l.map Prod.fst) ≤ 500 := by
  obtain ⟨pre, e, post, hsplit, hpre, he⟩ := hl.first
  set c := firstTime (l.map Prod.fst) with hc
  have hce : c = e.T := by rw [hc, hsplit]; exact firstTime_split _ _ _ _ hpre he
  have hprint := spoil_printed_start pre e post c c hpre he (by rw [← hsplit]; exact hs.printed)
  have hfull := hprint.1
  have htimes : sampleTimes (spoilt l) = e.T :: sampleTimes (spoil e.T e.T post) := by
    unfold spoilt
    rw [← hc]
    conv_lhs => rw [hsplit]
    exact spoil_split _ _ _ _ _ hpre hfull
  have hfirst : firstTime (spoilt l) = c := by
    unfold firstTime
    rw [htimes, hce]
    rfl
  have hchain := spoil_chains l c c c ha (by rw [sub_self]; exact hl.brief) le_rfl (by linarith) (by linarith) (by linarith)
  have hlast := spoil_last l c c ha (by rw [sub_self]; exact hl.brief) le_rfl (by linarith)
  have hne : sampleTimes (spoilt l) ≠ [] := by rw [htimes]; simp
  have hlast' : (sampleTimes (spoilt l)).getLastD 0 ≤ (sampleTimes (l.map Prod.fst)).getLastD 0 ∧
      (sampleTimes (l.map Prod.fst)).getLastD 0 ≤ (sampleTimes (spoilt l)).getLastD 0 + 800 := by
    rw [getLastD_ne hne 0 c, getLastD_ne hs.samples 0 c]
    exact hlast
  have hmemfix : ∀ x ∈ spoilt l, x.isFix = true → x ∈ l.map Prod.fst := by
    intro x hx hf
    have : x ∈ (spoilt l).filter Event.isFix := List.mem_filter.mpr ⟨hx, hf⟩
    unfold spoilt at this
    rw [spoil_fixes] at this
    exact (keptEvents_sublist l).subset (List.mem_filter.mp this).1
  have hfixes := kept_fixTimes l c c
  have hall := all_fixTimes l
  have hends := filter_ends (fun q : Event × Fate => decide (q.2 = Fate.kept)) (l.filter fun q => q.1.isFix)
    (fun q hq => by simpa using hl.ends.1 q hq) (fun q hq => by simpa using hl.ends.2 q hq)
  have hh : (fixTimes (spoilt l)).headD 0 = (fixTimes (l.map Prod.fst)).headD 0 := by
    unfold spoilt
    rw [← hc, hfixes, hall, List.headD_eq_head?_getD, List.headD_eq_head?_getD, List.head?_map, List.head?_map, hends.1]
  have hg : (fixTimes (spoilt l)).getLastD 0 = (fixTimes (l.map Prod.fst)).getLastD 0 := by
    unfold spoilt
    rw [← hc, hfixes, hall, List.getLastD_eq_getLast?, List.getLastD_eq_getLast?, List.getLast?_map, List.getLast?_map, hends.2]
  refine ⟨⟨?_, ?_, ?_, ?_, hne, ?_, ?_, ?_, ?_, ?_, ?_⟩, hfirst, ?_, ?_⟩
  · exact spoil_valid l c c (fun q hq => hs.valid _ (List.mem_map_of_mem hq)) hl.junk
  · refine le_trans (spoil_length l c c) ?_
    have := hs.length
    rwa [List.length_map] at this
  · have := hprint.2
    rw [← hsplit] at this
    exact this
  · exact isChain_tail' hchain.1
  · exact isChain_tail' hchain.2
  · obtain ⟨q, hq, h1, h2⟩ := hl.status
    refine ⟨q.1, ?_, h1⟩
    have : q.1 ∈ (spoil c c l).filter Event.isStatus := by
      rw [spoil_status]
      refine List.mem_filter.mpr ⟨?_, h1⟩
      exact List.mem_map_of_mem (List.mem_filter.mpr ⟨hq, by simpa using h2⟩)
    exact (List.mem_filter.mp this).1
  · intro x hx hf
    exact hs.fixes x (hmemfix x hx hf) hf
  · show 10 ≤ (fixTimes (spoil c c l)).length
    rw [hfixes, List.length_map, List.filter_filter]
    have := hl.enough
    have e1 : (fun q : Event × Fate => q.1.isFix && decide (q.2 = Fate.kept)) = fun q => decide (q.2 = Fate.kept) && q.1.isFix := by
      funext q
      exact Bool.and_comm _ _
    rwa [e1] at this
  · show (fixTimes (spoil c c l)).Pairwise (· < ·)
    rw [hfixes]
    refine List.Pairwise.sublist (List.filter_sublist.map _) ?_
    rw [← hall]
    exact hs.increasing
  · rw [hh, hg]
    have h0 := hs.covers
    have h1 : (sampleTimes (spoilt l)).headD 0 = (sampleTimes (l.map Prod.fst)).headD 0 := hfirst
    rw [h1]
    linarith [hlast'.1]
  · unfold endTime
    constructor
    · linarith [hlast'.1]
    · linarith [hlast'.2]
  · rw [hce]
    unfold spoilt
    rw [← hc, hce]
    conv => rw [hsplit]
    exact spoil_head pre e post e.T hpre hfull (by rw [← hsplit, ← hce]; exact ha)

theorem spoilt_follow {a b : Rat} : ∀ (files : List (List (Event × Fate))) (start start' : Rat),
    FilesFollow a b start (files.map fun l => l.map Prod.fst) → SteadyFrom start (files.map fun l => l.map Prod.fst) → (∀ l ∈ files, FewLost l) →
    start' ≤ start → start ≤ start' + 800 → FilesFollow a b start' (files.map spoilt) := by
  intro files
  induction files with
  | nil => intros; trivial
  | cons l files ih =>
    intro start start' hf hs hl h1 h2
    rw [List.map_cons] at hf hs ⊢
    obtain ⟨hclean, hrest⟩ := hf
    obtain ⟨ha, hd, hsteady⟩ := hs
    obtain ⟨k1, k2, k3, k4⟩ := spoilt_sound hclean.toSoundFile (hl l List.mem_cons_self) ha
    refine ⟨⟨k1, ?_, ?_⟩, ih _ _ hrest hsteady (fun l hl' => hl l (List.mem_cons_of_mem _ hl')) k3.1 k3.2⟩
    · intro x hx
      obtain ⟨m1, m2⟩ := k4 x hx
      constructor <;> linarith [hd.1, hd.2]
    · intro x hx
      have e1 : firstTime (spoilt l) = x := by
        unfold firstTime
        cases hst : sampleTimes (spoilt l) with
        | nil => rw [hst] at hx; simp at hx
        | cons y m => rw [hst] at hx; simpa using hx
      have e2 : ∀ y ∈ (sampleTimes (l.map Prod.fst)).head?, start ≤ y + 893 / 100 := hclean.after
      have e3 : firstTime (l.map Prod.fst) ∈ (sampleTimes (l.map Prod.fst)).head? := by
        unfold firstTime
        cases hst : sampleTimes (l.map Prod.fst) with
        | nil => exact absurd hst hclean.samples
        | cons y m => simp
      have := e2 _ e3
      rw [← k2, e1] at this
      linarith

/-- The times that the remaining lines give to the samples. -/
theorem spoilt_record (a b : Rat) (files : List (List (Event × Fate))) : trueRecord a b (files.map spoilt) = damagedRecord a b files := by
  unfold trueRecord damagedRecord
  rw [List.flatMap_map]
  congr 1
  funext l
  have h := spoil_samples l (firstTime (l.map Prod.fst)) (firstTime (l.map Prod.fst)) 0 0
  rw [sub_self, sub_self] at h
  unfold pressuresOf spoilt
  rw [h.1, h.2, List.map_map, List.zip_map', ]
  rfl

theorem spoilt_clean {a b : Rat} {files : List (List (Event × Fate))} (hclean : CleanRecording a b (files.map fun l => l.map Prod.fst))
    (hsteady : SteadyFrom 0 (files.map fun l => l.map Prod.fst)) (hlost : ∀ l ∈ files, FewLost l)
    (hstart : ∀ x y z m, files.flatMap seemingTimes = x :: y :: z :: m → y - x ≤ 25 ∨ z - y ≤ 25) :
    CleanRecording a b (files.map spoilt) := by
  refine ⟨hclean.rate, spoilt_follow files 0 0 hclean.follow hsteady hlost le_rfl (by norm_num), ?_, ?_⟩
  · refine List.Pairwise.sublist ?_ hclean.fixes
    clear hclean hsteady hlost hstart
    induction files with
    | nil => exact List.Sublist.slnil
    | cons l files ih =>
      rw [List.map_cons, List.map_cons, List.flatMap_cons, List.flatMap_cons]
      refine List.Sublist.append ?_ ih
      unfold spoilt
      rw [kept_fixTimes, all_fixTimes]
      exact List.filter_sublist.map _
  · have e : (files.map spoilt).flatMap sampleTimes = files.flatMap seemingTimes := by
      rw [List.flatMap_map]
      congr 1
      funext l
      have h := (spoil_samples l (firstTime (l.map Prod.fst)) (firstTime (l.map Prod.fst)) 0 0).1
      rw [sub_self] at h
      exact h
    rw [e]
    exact hstart

theorem spoilt_version {v : String} {l : List (Event × Fate)} (h : HasVersion v (l.map Prod.fst)) (hk : l.head?.map Prod.snd = some Fate.kept) :
    HasVersion v (spoilt l) := by
  obtain ⟨e, rest, he, hline⟩ := h
  cases l with
  | nil => cases he
  | cons q l =>
    rcases q with ⟨e', f⟩
    rw [List.map_cons, List.cons.injEq] at he
    obtain ⟨rfl, -⟩ := he
    obtain rfl : f = Fate.kept := by simpa using hk
    have h1 : e'.isFull = false := by unfold Event.isFull; rw [hline]
    have h2 : e'.step.isSome = false := by unfold Event.step; rw [hline]; rfl
    refine ⟨e', spoil (firstTime (((e', Fate.kept) :: l).map Prod.fst)) (firstTime (((e', Fate.kept) :: l).map Prod.fst)) l, ?_, hline⟩
    unfold spoilt
    conv_lhs => unfold spoil
    rw [if_neg (by rw [h1]; simp), if_neg (by rw [h2]; simp)]

end Gemlog
