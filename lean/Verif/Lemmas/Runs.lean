import Verif.Lemmas.Convert

/-! # Invariants and termination of all runs of the conversion loops -/

namespace Gemlog

/-- `P` holds of the result if the run finishes, `Q` of the segments written if it raises. -/
def Run.Sat {α : Type} (P : α → Prop) (Q : List Trace → Prop) : Run α → Prop
  | .done a => P a
  | .raised _ out => Q out
  | .running => True

theorem Run.Sat.bind {α β : Type} {P : α → Prop} {P' : β → Prop} {Q : List Trace → Prop} {r : Run α} {f : α → Run β}
    (h : r.Sat P Q) (hf : ∀ a, P a → (f a).Sat P' Q) : (r.bind f).Sat P' Q := by
  cases r with
  | done a => exact hf a h
  | raised x out => exact h
  | running => trivial

/-- An invariant of the conversion: `G` for the time and the output, `A` for the stream, `Q` for the output. -/
structure Keeps (j : Job) (G : Int → List Trace → Prop) (A : List Trace → Prop) (Q : List Trace → Prop) : Prop where
  body : ∀ s, G s.h s.out → A s.p → (writeBody j.L j.t2 s).Sat (fun r => G r.1.h r.1.out ∧ A r.1.p) Q
  out : ∀ h o, G h o → Q o
  trim : ∀ a b p p', A p → trimStream a b p = .ok p' → A p'
  read : ∀ b d p, A p → j.read b = .ok d → A (mergeGaps (p ++ d))

section
variable {j : Job} {G : Int → List Trace → Prop} {A Q : List Trace → Prop} (hk : Keeps j G A Q)
include hk

theorem writeFull_sat (n : Nat) (s : WState) (h1 : G s.h s.out) (h2 : A s.p) :
    (writeFull j.L j.t2 n s).Sat (fun s => G s.h s.out ∧ A s.p) Q := by
  induction n generalizing s with
  | zero => trivial
  | succ n ih =>
    rw [writeFull]
    cases hl : s.p.getLast? with
    | none => exact hk.out _ _ h1
    | some tr =>
      simp only
      split_ifs with hc
      · refine (hk.body s h1 h2).bind ?_
        rintro ⟨r, b⟩ ⟨g1, g2⟩
        cases b with
        | true => exact ih r g1 g2
        | false => exact ⟨g1, g2⟩
      · exact ⟨h1, h2⟩

theorem writeRest_sat (n : Nat) (s : WState) (h1 : G s.h s.out) (h2 : A s.p) :
    (writeRest j.L j.t2 n s).Sat (fun s => G s.h s.out ∧ A s.p) Q := by
  induction n generalizing s with
  | zero => trivial
  | succ n ih =>
    rw [writeRest]
    cases hl : s.p.getLast? with
    | none => exact hk.out _ _ h1
    | some tr =>
      simp only
      split_ifs with hc
      · refine (hk.body s h1 h2).bind ?_
        rintro ⟨r, b⟩ ⟨g1, g2⟩
        cases b with
        | true => exact ih r g1 g2
        | false => exact ⟨g1, g2⟩
      · exact ⟨h1, h2⟩

theorem readBlocks_sat (tt2 : Int) (out : List Trace) (n : Nat) (n1 : Rat) (p : List Trace) (reads : List (List Int))
    (h1 : Q out) (h2 : A p) : (readBlocks j tt2 out n n1 p reads).Sat (fun r => A r.2.1) Q := by
  induction n generalizing n1 p reads with
  | zero => trivial
  | succ n ih =>
    rw [readBlocks]
    cases hl : p.getLast? with
    | none => exact h1
    | some tr =>
      simp only
      split_ifs with hc
      · cases hr : j.read (j.block n1) with
        | error x =>
          simp only
          split_ifs with hx
          · exact ih _ _ _ h2
          · exact h1
        | ok d =>
          cases d with
          | nil => exact ih _ _ _ h2
          | cons t d => exact ih _ _ _ (hk.read _ _ _ h2 hr)
      · exact h2

theorem mainLoop_sat (n : Nat) (s : CState) (h1 : G s.w.h s.w.out) (h2 : A s.w.p) :
    (mainLoop j n s).Sat (fun s => G s.w.h s.w.out ∧ A s.w.p) Q := by
  induction n generalizing s with
  | zero => trivial
  | succ n ih =>
    rw [mainLoop]
    split_ifs with c1 c2
    · exact ⟨h1, h2⟩
    · exact ⟨h1, h2⟩
    · simp only
      refine (readBlocks_sat hk _ _ _ _ _ _ (hk.out _ _ h1) h2).bind ?_
      intro r hr
      refine (writeFull_sat hk n { s.w with p := r.2.1 } h1 hr).bind ?_
      rintro w ⟨g1, g2⟩
      cases ht : trimStream w.h j.t2 w.p with
      | error x => exact hk.out _ _ g1
      | ok p => exact ih _ g1 (hk.trim _ _ _ _ g2 ht)

omit hk in
theorem firstBlock_sat {R : List Trace → Prop} (hread : ∀ b d, j.read b = .ok d → R d) (hQ : Q [])
    (n : Nat) (n1 : Rat) (reads : List (List Int)) :
    (firstBlock j n n1 reads).Sat (fun r => R r.2.1) Q := by
  induction n generalizing n1 reads with
  | zero => trivial
  | succ n ih =>
    rw [firstBlock]
    split_ifs with c1
    · cases hr : j.read (j.block n1) with
      | error x =>
        simp only
        split_ifs with hx
        · exact ih _ _
        · exact hQ
      | ok d =>
        cases d with
        | nil => exact ih _ _
        | cons t d => exact hread _ _ hr
    · exact hQ

/-- Every run of a conversion keeps the invariant. -/
theorem convertLoops_sat {R : List Trace → Prop} (hread : ∀ b d, j.read b = .ok d → R d) (hQ : Q [])
    (t1 : Option Int) (hR : ∀ d, R d → (t1 ≠ none → A d) ∧ A (mergeGaps d))
    (hG : ∀ p t, A p → (t1 = some t ∨ t1 = none ∧ ∃ tr r, p = tr :: r ∧
        t = 1000000 * (-((-10000 * tr.start) / 1000000))) →
      G (match p with | [] => t | tr :: _ => max t (10000 * tr.start)) [])
    (n : Nat) : (convertLoops j t1 n).Sat (fun s => Q s.w.out) Q := by
  unfold convertLoops
  refine (firstBlock_sat hread hQ n _ _).bind ?_
  intro r hr
  cases hst : startTime t1 r.2.1 with
  | error x => exact hQ
  | ok q =>
    obtain ⟨p, t⟩ := q
    simp only
    have hp : A p ∧ (t1 = some t ∨ t1 = none ∧ ∃ tr r, p = tr :: r ∧
        t = 1000000 * (-((-10000 * tr.start) / 1000000))) := by
      unfold startTime at hst
      cases t1 with
      | some t0 =>
        simp only [Except.ok.injEq, Prod.mk.injEq] at hst
        rw [← hst.1, ← hst.2]
        exact ⟨(hR _ hr).1 (by simp), Or.inl rfl⟩
      | none =>
        cases hm : mergeGaps r.2.1 with
        | nil => simp [hm] at hst
        | cons tr rest =>
          simp only [hm, Except.ok.injEq, Prod.mk.injEq] at hst
          rw [← hst.1, ← hst.2, ← hm]
          exact ⟨(hR _ hr).2, Or.inr ⟨rfl, tr, rest, hm, rfl⟩⟩
    refine (mainLoop_sat hk n _ (hG p t hp.1 hp.2) hp.1).bind ?_
    rintro s ⟨g1, g2⟩
    refine (writeRest_sat hk n s.w g1 g2).bind ?_
    rintro w ⟨g3, _⟩
    exact hk.out _ _ g3

end

/-! ## Lower bounds -/

/-- All traces are non-empty and start at or after `B` (hundredths of a second). -/
def Above (B : Int) (p : List Trace) : Prop := ∀ tr ∈ p, tr.data ≠ [] ∧ B ≤ tr.start

theorem above_samples {B : Int} {p : List Trace} (h : Above B p) {q : Int × Int} (hq : q ∈ samples p) : B ≤ q.1 := by
  unfold samples at hq
  obtain ⟨tr, h1, h2⟩ := List.mem_flatMap.mp hq
  have := mem_stamps_range h2
  have := (h tr h1).2
  omega

theorem mem_samples_start {p : List Trace} {tr : Trace} (h : tr ∈ p) (hne : tr.data ≠ []) : ∃ x, (tr.start, x) ∈ samples p := by
  cases hd : tr.data with
  | nil => exact absurd hd hne
  | cons x l =>
    refine ⟨x, ?_⟩
    unfold samples
    rw [List.mem_flatMap]
    exact ⟨tr, h, by rw [hd]; simp [stamps]⟩

theorem trimStream_ok {a b : Int} {p p' : List Trace} (h : trimStream a b p = .ok p') :
    (∀ tr ∈ p', tr.data ≠ []) ∧ (∀ q ∈ samples p', q ∈ samples p) := by
  cases p with
  | nil =>
    unfold trimStream at h
    simp only [Except.ok.injEq] at h
    rw [← h]
    exact ⟨by simp, by simp⟩
  | cons tr p =>
    rcases trimStream_cases a b tr p with ⟨h1, _⟩ | ⟨p1, h1, _, h3, h4⟩
    · rw [h1] at h; simp at h
    · rw [h1] at h
      simp only [Except.ok.injEq] at h
      rw [← h]
      refine ⟨h3, ?_⟩
      intro q hq
      rw [h4] at hq
      exact List.mem_of_mem_filter hq

theorem above_trim {B a b : Int} {p p' : List Trace} (hA : Above B p) (h : trimStream a b p = .ok p') : Above B p' := by
  obtain ⟨h1, h2⟩ := trimStream_ok h
  intro tr htr
  refine ⟨h1 tr htr, ?_⟩
  obtain ⟨x, hx⟩ := mem_samples_start htr (h1 tr htr)
  exact above_samples hA (h2 _ hx)

theorem splitData_above (B k : Int) (cur : List Int) (l : List (Option Int)) (h : B ≤ k - cur.length) :
    Above B (splitData k cur l) := by
  induction l generalizing k cur with
  | nil =>
    unfold splitData
    split_ifs with hc
    · intro tr htr; simp at htr
    · intro tr htr
      rw [List.mem_singleton.mp htr]
      exact ⟨by simpa using hc, h⟩
  | cons a l ih =>
    cases a with
    | some x =>
      unfold splitData
      apply ih
      simp only [List.length_cons]
      push_cast
      omega
    | none =>
      unfold splitData
      split_ifs with hc
      · apply ih
        rw [hc] at h
        simp at h ⊢
        omega
      · intro tr htr
        rcases List.mem_cons.mp htr with h' | h'
        · rw [h']
          exact ⟨by simpa using hc, h⟩
        · refine ih (k + 1) [] ?_ tr h'
          simp only [List.length_nil]
          omega

theorem addTraces_start {B : Int} (i : Bool) (a b : MTrace) (ha : B ≤ a.start) (hb : B ≤ b.start) :
    B ≤ (addTraces i a b).start := by
  have key : ∀ x y : MTrace, (addOrdered i x y).start = x.start := by
    intro x y
    unfold addOrdered
    simp only
    split_ifs <;> rfl
  unfold addTraces
  split_ifs
  · rw [key]; exact ha
  · rw [key]; exact hb

theorem mem_insertTrace {a x : MTrace} {l : List MTrace} (h : x ∈ insertTrace a l) : x = a ∨ x ∈ l := by
  induction l with
  | nil => left; simpa [insertTrace] using h
  | cons b l ih =>
    unfold insertTrace at h
    split_ifs at h
    · rcases List.mem_cons.mp h with h | h
      · exact Or.inl h
      · exact Or.inr h
    · rcases List.mem_cons.mp h with h | h
      · right; simp [h]
      · rcases ih h with h | h
        · exact Or.inl h
        · right; simp [h]

theorem mem_sortTraces {x : MTrace} {l : List MTrace} (h : x ∈ sortTraces l) : x ∈ l := by
  induction l with
  | nil => simp [sortTraces] at h
  | cons a l ih =>
    unfold sortTraces at h
    rcases mem_insertTrace h with h | h
    · simp [h]
    · simp [ih h]

theorem mergeTraces_start {B : Int} (i : Bool) (st : List MTrace) (h : ∀ a ∈ st, B ≤ a.start) (m : MTrace)
    (hm : mergeTraces i st = some m) : B ≤ m.start := by
  unfold mergeTraces at hm
  have h' : ∀ a ∈ sortTraces st, B ≤ a.start := fun a ha => h a (mem_sortTraces ha)
  cases hs : sortTraces st with
  | nil => rw [hs] at hm; simp at hm
  | cons a l =>
    rw [hs] at hm h'
    simp only [Option.some.injEq] at hm
    rw [← hm]
    have key : ∀ (l : List MTrace) (a : MTrace), B ≤ a.start → (∀ b ∈ l, B ≤ b.start) →
        B ≤ (l.foldl (addTraces i) a).start := by
      intro l
      induction l with
      | nil => intro a ha _; exact ha
      | cons b l ih =>
        intro a ha hb
        rw [List.foldl_cons]
        exact ih _ (addTraces_start i a b ha (hb b (by simp))) fun c hc => hb c (by simp [hc])
    exact key l a (h' a (by simp)) fun b hb => h' b (by simp [hb])

theorem mergeGaps_above {B : Int} {st : List Trace} (h : ∀ tr ∈ st, B ≤ tr.start) : Above B (mergeGaps st) := by
  unfold mergeGaps
  have h' : ∀ a ∈ st.map Trace.toM, B ≤ a.start := by
    intro a ha
    obtain ⟨tr, h1, rfl⟩ := List.mem_map.mp ha
    exact h tr h1
  cases hs : st.map Trace.toM with
  | nil => intro tr htr; simp at htr
  | cons a rest =>
    rw [hs] at h'
    simp only
    have key : ∀ (l out : List MTrace), (∀ b ∈ out, B ≤ b.start) → (∀ b ∈ l, B ≤ b.start) →
        ∀ b ∈ l.foldl mergeStep out, B ≤ b.start := by
      intro l
      induction l with
      | nil => intro out ho _; exact ho
      | cons c l ih =>
        intro out ho hl
        rw [List.foldl_cons]
        refine ih _ ?_ fun b hb => hl b (by simp [hb])
        intro b hb
        unfold mergeStep at hb
        cases hg : out.getLast? with
        | none => rw [hg] at hb; exact ho b hb
        | some tr1 =>
          rw [hg] at hb
          simp only at hb
          split_ifs at hb
          · rcases List.mem_append.mp hb with hb | hb
            · exact ho b hb
            · rw [Option.mem_toList] at hb
              refine mergeTraces_start true [tr1, c] ?_ b hb
              intro x hx
              rcases List.mem_cons.mp hx with hx | hx
              · rw [hx]; exact ho _ (List.mem_of_getLast? hg)
              · rw [List.mem_singleton.mp hx]; exact hl c (by simp)
          · rcases List.mem_append.mp hb with hb | hb
            · exact ho b hb
            · rw [List.mem_singleton.mp hb]; exact hl c (by simp)
    cases hm : mergeTraces false (rest.foldl mergeStep [a]) with
    | none => intro tr htr; simp at htr
    | some m =>
      simp only
      unfold MTrace.split
      apply splitData_above
      have := mergeTraces_start false _ (key rest [a] (by intro b hb; rw [List.mem_singleton.mp hb]; exact h' a (by simp))
        fun b hb => h' b (by simp [hb])) m hm
      simpa using this

/-! ## One pass of a writing loop, for any stream -/

theorem trim_grid_lower {e t2 : Int} {p p' : List Trace} (h : trimStream (10000 * e) t2 p = .ok p') :
    ∀ q ∈ samples p', e ≤ q.1 := by
  cases p with
  | nil =>
    unfold trimStream at h
    simp only [Except.ok.injEq] at h
    rw [← h]
    simp [samples]
  | cons tr p =>
    rcases trimStream_cases (10000 * e) t2 tr p with ⟨h1, _⟩ | ⟨p1, h1, _, h3, h4⟩
    · rw [h1] at h; simp at h
    · rw [h1] at h
      simp only [Except.ok.injEq] at h
      rw [← h]
      intro q hq
      rw [h4, List.mem_filter] at hq
      have h5 := hq.2
      simp only [Bool.and_eq_true, decide_eq_true_eq] at h5
      have : (trimLimits (10000 * e) t2 tr).1 = e := by
        unfold trimLimits
        have : 10000 * e - 10000 * tr.start = 10000 * (e - tr.start) := by ring
        simp only [this, roundAway_mul]
        ring
      omega

/-- The time goes forward if the file length is on the grid. -/
theorem writeBody_forward {L t2 l : Int} (hL : L = 10000 * l) (hl : 0 < l) {s s' : WState} {b : Bool}
    (h : writeBody L t2 s = .done (s', b)) :
    s.h < s'.h ∧ (∀ tr ∈ s'.p, tr.data ≠ []) ∧ (∀ q ∈ samples s'.p, q ∈ samples s.p) ∧
      s'.out = s.out ++ sliceStream s.h (windowEnd L s.h - 1) s.p := by
  obtain ⟨e, he⟩ := windowEnd_grid l s.h
  rw [← hL] at he
  have hw := @truncTime_gt s.h L (by omega)
  have hwe : windowEnd L s.h = truncTime s.h L + L := rfl
  have hwin : writeWindow L s.p s.h = (sliceStream s.h (windowEnd L s.h - 1) s.p, windowEnd L s.h) := rfl
  unfold writeBody at h
  rw [hwin] at h
  simp only at h
  cases ht : trimStream (windowEnd L s.h) t2 s.p with
  | error x => rw [ht] at h; simp at h
  | ok p =>
    obtain ⟨h1, h2⟩ := trimStream_ok ht
    rw [ht] at h
    cases p with
    | nil =>
      simp only [Run.done.injEq, Prod.mk.injEq] at h
      rw [← h.1]
      exact ⟨by simp only; omega, by simp, by simp [samples], rfl⟩
    | cons tr p =>
      simp only [Run.done.injEq, Prod.mk.injEq] at h
      rw [← h.1]
      refine ⟨?_, h1, h2, rfl⟩
      rw [he] at ht
      obtain ⟨x, hx⟩ := mem_samples_start (List.mem_cons_self (a := tr) (l := p)) (h1 tr (by simp))
      have := trim_grid_lower ht _ hx
      simp only at this ⊢
      omega

theorem writeBody_not_running (L t2 : Int) (s : WState) : writeBody L t2 s ≠ .running := by
  unfold writeBody
  simp only
  cases trimStream (writeWindow L s.p s.h).2 t2 s.p with
  | error x => simp
  | ok p => cases p <;> simp

/-! ## Termination -/

/-- Some result is reached. -/
def Ends {α : Type} (f : Nat → Run α) : Prop := ∃ r, Settles f r

theorem ends_bind {α β : Type} {f : Nat → Run α} {g : Nat → α → Run β} (hf : Ends f)
    (hg : ∀ a, Settles f (.done a) → Ends (fun n => g n a)) : Ends (fun n => (f n).bind (g n)) := by
  obtain ⟨r, hr⟩ := hf
  cases r with
  | done a =>
    obtain ⟨r', hr'⟩ := hg a hr
    exact ⟨r', settles_bind hr hr'⟩
  | raised x out => exact ⟨_, settles_bind_raised hr⟩
  | running => exact absurd rfl hr.1

theorem ends_const {α : Type} {r : Run α} (h : r ≠ .running) : Ends (fun _ => r) := ⟨r, settles_const h⟩

theorem ends_succ {α : Type} {f : Nat → Run α} (h : Ends fun n => f (n + 1)) : Ends f := by
  obtain ⟨r, hr⟩ := h
  exact ⟨r, settles_succ hr⟩

theorem stop_mem {tr : Trace} {p : List Trace} (h : tr ∈ p) (hne : tr.data ≠ []) : ∃ x, (tr.stop, x) ∈ samples p := by
  obtain ⟨x, r, e⟩ := last_stamps hne
  refine ⟨x, ?_⟩
  unfold samples
  rw [List.mem_flatMap]
  exact ⟨tr, h, by rw [e]; simp⟩

theorem sample_le_stop {tr : Trace} {q : Int × Int} (h : q ∈ stamps tr.start tr.data) : q.1 ≤ tr.stop := by
  have h1 := mem_stamps_range h
  have hne : tr.data ≠ [] := by
    intro h'
    rw [h'] at h
    simp [stamps] at h
  rw [stop_of_ne hne]
  omega

theorem exists_bound (p : List Trace) : ∃ E : Int, ∀ tr ∈ p, tr.stop ≤ E := by
  induction p with
  | nil => exact ⟨0, by simp⟩
  | cons a p ih =>
    obtain ⟨E, hE⟩ := ih
    refine ⟨max E a.stop, ?_⟩
    intro tr htr
    rcases List.mem_cons.mp htr with h | h
    · rw [h]; exact le_max_right _ _
    · exact le_trans (hE tr h) (le_max_left _ _)

theorem body_bound {L t2 l E : Int} (hL : L = 10000 * l) (hl : 0 < l) {s s' : WState} {b : Bool}
    (hE : ∀ tr ∈ s.p, tr.stop ≤ E) (h : writeBody L t2 s = .done (s', b)) : s.h < s'.h ∧ ∀ tr ∈ s'.p, tr.stop ≤ E := by
  obtain ⟨h1, h2, h3, _⟩ := writeBody_forward hL hl h
  refine ⟨h1, ?_⟩
  intro tr htr
  obtain ⟨x, hx⟩ := stop_mem htr (h2 tr htr)
  have hm := h3 _ hx
  unfold samples at hm
  obtain ⟨a, ha, hq⟩ := List.mem_flatMap.mp hm
  exact le_trans (sample_le_stop hq) (hE a ha)

theorem writeFull_ends {L t2 l : Int} (hL : L = 10000 * l) (hl : 0 < l) (s : WState) :
    Ends fun n => writeFull L t2 n s := by
  obtain ⟨E, hE⟩ := exists_bound s.p
  obtain ⟨k, hk⟩ : ∃ k, k = (10000 * E - s.h).toNat := ⟨_, rfl⟩
  induction k using Nat.strong_induction_on generalizing s with
  | _ k ih =>
    apply ends_succ
    simp only [writeFull]
    cases hl' : s.p.getLast? with
    | none => exact ends_const (by simp)
    | some tr =>
      simp only
      by_cases hc : s.h + L ≤ 10000 * tr.stop
      · simp only [if_pos hc]
        have hEt := hE tr (List.mem_of_getLast? hl')
        apply ends_bind (f := fun _ => writeBody L t2 s)
        · exact ends_const (writeBody_not_running _ _ _)
        · rintro ⟨s', b⟩ hs
          obtain ⟨_, N, hN⟩ := hs
          obtain ⟨b1, b2⟩ := body_bound hL hl hE (hN N (le_refl _))
          cases b with
          | false => exact ends_const (by simp)
          | true =>
            simp only [if_true]
            exact ih _ (by omega) s' b2 rfl
      · simp only [if_neg hc]
        exact ends_const (by simp)

theorem writeRest_ends {L t2 l : Int} (hL : L = 10000 * l) (hl : 0 < l) (s : WState) :
    Ends fun n => writeRest L t2 n s := by
  obtain ⟨E, hE⟩ := exists_bound s.p
  obtain ⟨k, hk⟩ : ∃ k, k = (10000 * E + 1 - s.h).toNat := ⟨_, rfl⟩
  induction k using Nat.strong_induction_on generalizing s with
  | _ k ih =>
    apply ends_succ
    simp only [writeRest]
    cases hl' : s.p.getLast? with
    | none => exact ends_const (by simp)
    | some tr =>
      simp only
      by_cases hc : s.h ≤ 10000 * tr.stop
      · simp only [if_pos hc]
        have hEt := hE tr (List.mem_of_getLast? hl')
        apply ends_bind (f := fun _ => writeBody L t2 s)
        · exact ends_const (writeBody_not_running _ _ _)
        · rintro ⟨s', b⟩ hs
          obtain ⟨_, N, hN⟩ := hs
          obtain ⟨b1, b2⟩ := body_bound hL hl hE (hN N (le_refl _))
          cases b with
          | false => exact ends_const (by simp)
          | true =>
            simp only [if_true]
            exact ih _ (by omega) s' b2 rfl
      · simp only [if_neg hc]
        exact ends_const (by simp)

theorem firstBlock_ends {j : Job} (hb : 0 < j.blockdays) (n1 : Rat) (reads : List (List Int)) :
    Ends fun n => firstBlock j n n1 reads := by
  obtain ⟨k, hk⟩ : ∃ k, k = blocksLeft j n1 := ⟨_, rfl⟩
  induction k using Nat.strong_induction_on generalizing n1 reads with
  | _ k ih =>
    apply ends_succ
    simp only [firstBlock]
    by_cases hc : n1 ≤ j.last
    · simp only [if_pos hc]
      have hlt : blocksLeft j (n1 + 12 * j.blockdays) < k := by rw [hk]; exact blocksLeft_lt hb hc
      cases hr : j.read (j.block n1) with
      | error x =>
        simp only
        by_cases hx : x.skipsBlock = true
        · simp only [if_pos hx]
          exact ih _ hlt _ _ rfl
        · simp only [if_neg hx]
          exact ends_const (by simp)
      | ok d =>
        cases d with
        | nil => exact ih _ hlt _ _ rfl
        | cons t d => exact ends_const (by simp)
    · simp only [if_neg hc]
      exact ends_const (by simp)

theorem readBlocks_ends {j : Job} (hb : 0 < j.blockdays) (tt2 : Int) (out : List Trace) (n1 : Rat) (p : List Trace)
    (reads : List (List Int)) : Ends fun n => readBlocks j tt2 out n n1 p reads := by
  obtain ⟨k, hk⟩ : ∃ k, k = blocksLeft j n1 := ⟨_, rfl⟩
  induction k using Nat.strong_induction_on generalizing n1 p reads with
  | _ k ih =>
    apply ends_succ
    simp only [readBlocks]
    cases hl : p.getLast? with
    | none => exact ends_const (by simp)
    | some tr =>
      simp only
      by_cases hc : 10000 * tr.stop < tt2 ∧ n1 ≤ j.last
      · simp only [if_pos hc]
        have hc2 := hc.2
        have hlt : blocksLeft j (n1 + 12 * j.blockdays) < k := by rw [hk]; exact blocksLeft_lt hb hc2
        cases hr : j.read (j.block n1) with
        | error x =>
          simp only
          by_cases hx : x.skipsBlock = true
          · simp only [if_pos hx]
            exact ih _ hlt _ _ _ rfl
          · simp only [if_neg hx]
            exact ends_const (by simp)
        | ok d =>
          cases d with
          | nil => exact ih _ hlt _ _ _ rfl
          | cons t d => exact ih _ hlt _ _ _ rfl
      · simp only [if_neg hc]
        exact ends_const (by simp)

theorem mainLoop_ends {j : Job} {l : Int} (hb : 0 < j.blockdays) (hL : j.L = 10000 * l) (hl : 0 < l) (s : CState) :
    Ends fun n => mainLoop j n s := by
  obtain ⟨k, hk⟩ : ∃ k, k = (j.t2 + 1 - s.t1).toNat := ⟨_, rfl⟩
  induction k using Nat.strong_induction_on generalizing s with
  | _ k ih =>
    apply ends_succ
    simp only [mainLoop]
    by_cases c1 : s.n1 > j.last
    · simp only [if_pos c1]
      exact ends_const (by simp)
    · by_cases c2 : s.t1 > j.t2
      · simp only [if_neg c1, if_pos c2]
        exact ends_const (by simp)
      · simp only [if_neg c1, if_neg c2]
        apply ends_bind (f := fun n => readBlocks j _ s.w.out n s.n1 s.w.p s.reads)
        · exact readBlocks_ends hb _ _ _ _ _
        · intro r _
          apply ends_bind (f := fun n => writeFull j.L j.t2 n _)
          · exact writeFull_ends hL hl _
          · intro w _
            cases ht : trimStream w.h j.t2 w.p with
            | error x => exact ends_const (by simp)
            | ok p =>
              simp only
              refine ih _ ?_ _ rfl
              simp only
              have hday : 0 < j.day := day_pos hb
              have g1 := @truncTime_gt s.t1 _ hday
              have g2 := @truncTime_gt (min j.t2 (truncTime s.t1 (j.day) + j.day) +
                j.day + 1000000) _ hday
              omega

end Gemlog
