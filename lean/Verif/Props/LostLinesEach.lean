import Verif.Props.LostLinesRead

/-!
# C103: each remaining sample

Where a sample whose line is kept appears in the record that is read, and by how much its time and pressure are off, line by line.
-/

namespace Gemlog

/-- The time from the sample before to each sample whose line is lost, in total; `prev`: time of the sample before. -/
def timeLost : Rat → List (Event × Fate) → Rat
  | _, [] => 0
  | prev, (e, f) :: l =>
    if e.step.isSome then (if f = .kept then 0 else e.T - prev) + timeLost e.T l else timeLost prev l

/-- The changes of pressure on all lines. -/
def allSteps (l : List (Event × Fate)) : List Int := l.filterMap fun q => q.1.step

/-- The changes of pressure on the lines that are lost or spoilt. -/
def lostSteps (l : List (Event × Fate)) : List Int := (l.filter fun q => q.2 ≠ .kept).filterMap fun q => q.1.step

/-- The number of samples whose lines are kept. -/
def keptCount (l : List (Event × Fate)) : Nat := (l.filter fun q => q.1.step.isSome && decide (q.2 = .kept)).length

/-- No line that is kept gives the time of its sample. -/
def NoFullLine (l : List (Event × Fate)) : Prop := ∀ q ∈ l, q.2 = .kept → q.1.isFull = false

theorem survivors_split : ∀ (A B : List (Event × Fate)) (early prev : Rat) (p m : Int),
    ∃ X early' prev', survivors early prev p m (A ++ B) =
        X ++ survivors early' prev' (p + (allSteps A).sum) (m + (lostSteps A).sum) B ∧ X.length = keptCount A ∧
      (NoFullLine A → early' = early + timeLost prev A) := by
  intro A
  induction A with
  | nil =>
    intro B early prev p m
    refine ⟨[], early, prev, by simp [allSteps, lostSteps], by simp [keptCount], fun _ => by simp [timeLost]⟩
  | cons q A ih =>
    intro B early prev p m
    rcases q with ⟨e, f⟩
    rw [List.cons_append]
    cases hst : e.step with
    | none =>
      obtain ⟨X, e', p', h1, h2, h3⟩ := ih B early prev p m
      refine ⟨X, e', p', ?_, ?_, ?_⟩
      · conv_lhs => unfold survivors
        rw [hst]
        dsimp only
        rw [h1]
        congr 2
        · simp [allSteps, hst]
        · unfold lostSteps
          by_cases hf : f = Fate.kept
          · simp [hf]
          · simp [hf, hst]
      · rw [h2]
        simp [keptCount, hst]
      · intro hn
        rw [h3 fun q hq => hn q (List.mem_cons_of_mem _ hq)]
        simp [timeLost, hst]
    | some d =>
      by_cases hf : f = Fate.kept
      · subst hf
        have hs : (allSteps ((e, Fate.kept) :: A)).sum = d + (allSteps A).sum := by simp [allSteps, hst]
        have hl : lostSteps ((e, Fate.kept) :: A) = lostSteps A := by simp [lostSteps]
        have hk : keptCount ((e, Fate.kept) :: A) = keptCount A + 1 := by simp [keptCount, hst]
        rw [hs, hl, hk]
        cases hfull : e.isFull with
        | true =>
          obtain ⟨X, e', p', h1, h2, h3⟩ := ih B 0 e.T (p + d) m
          refine ⟨⟨e.T, p + d, 0, m⟩ :: X, e', p', ?_, by rw [List.length_cons, h2], ?_⟩
          · conv_lhs => unfold survivors
            rw [hst]
            dsimp only
            rw [if_pos hfull, h1, List.cons_append, add_assoc]
          · intro hn
            have := hn (e, Fate.kept) List.mem_cons_self rfl
            rw [hfull] at this
            cases this
        | false =>
          obtain ⟨X, e', p', h1, h2, h3⟩ := ih B early e.T (p + d) m
          refine ⟨⟨e.T, p + d, early, m⟩ :: X, e', p', ?_, by rw [List.length_cons, h2], ?_⟩
          · conv_lhs => unfold survivors
            rw [hst]
            dsimp only
            rw [if_neg (by simp [hfull]), h1, List.cons_append, add_assoc]
          · intro hn
            rw [h3 fun q hq => hn q (List.mem_cons_of_mem _ hq)]
            simp [timeLost, hst]
      · have hs : (allSteps ((e, f) :: A)).sum = d + (allSteps A).sum := by simp [allSteps, hst]
        have hl : (lostSteps ((e, f) :: A)).sum = d + (lostSteps A).sum := by simp [lostSteps, hf, hst]
        have hk : keptCount ((e, f) :: A) = keptCount A := by simp [keptCount, hf]
        rw [hs, hl, hk]
        obtain ⟨X, e', p', h1, h2, h3⟩ := ih B (early + (e.T - prev)) e.T (p + d) (m + d)
        refine ⟨X, e', p', ?_, h2, ?_⟩
        · have e1 : survivors early prev p m ((e, f) :: (A ++ B)) = survivors (early + (e.T - prev)) e.T (p + d) (m + d) (A ++ B) := by
            conv_lhs => unfold survivors
            rw [hst]
            cases f with
            | kept => exact absurd rfl hf
            | lost => rfl
            | junk body => rfl
          rw [e1, h1, add_assoc, add_assoc]
        · intro hn
          rw [h3 fun q hq => hn q (List.mem_cons_of_mem _ hq)]
          simp only [timeLost, hst, Option.isSome_some, if_true, if_neg hf]
          ring

/-- **C103, each sample.** Let `e` be a sample of a file whose line is kept, after the lines `A`. In the record that is read it has the place it has among the samples kept. Its
pressure is the true one without the changes of pressure on the lines lost before it in the file. If its line is full, its time is the true one. If it is written as letters, it seems early by the
time to the lost samples from the samples before them, counted from the last full line kept (or else from the beginning of the file). -/
theorem C103_each_sample (a b : Rat) (A B : List (Event × Fate)) (e : Event) (d : Int) (hd : e.step = some d) :
    (e.isFull = true → (damagedRecord a b [A ++ (e, .kept) :: B])[keptCount A]? =
      some (a + b * (e.T + 893 / 100), (allSteps A).sum + d - (lostSteps A).sum)) ∧
    (∀ A1 f A2, A = A1 ++ (f, .kept) :: A2 → f.isFull = true → NoFullLine A2 → e.isFull = false →
      (damagedRecord a b [A ++ (e, .kept) :: B])[keptCount A]? =
        some (a + b * (e.T - timeLost f.T A2 + 893 / 100), (allSteps A).sum + d - (lostSteps A).sum)) ∧
    (NoFullLine A → e.isFull = false → (damagedRecord a b [A ++ (e, .kept) :: B])[keptCount A]? =
      some (a + b * (e.T - timeLost (firstTime ((A ++ (e, .kept) :: B).map Prod.fst)) A + 893 / 100), (allSteps A).sum + d - (lostSteps A).sum)) := by
  have key : ∀ (X : List Survivor) (early prev : Rat) (p m : Int), X.length = keptCount A →
      survivors 0 (firstTime ((A ++ (e, .kept) :: B).map Prod.fst)) 0 0 (A ++ (e, .kept) :: B) = X ++ survivors early prev p m ((e, .kept) :: B) →
      (damagedRecord a b [A ++ (e, .kept) :: B])[keptCount A]? =
        some (a + b * (e.T - (if e.isFull = true then 0 else early) + 893 / 100), p + d - m) := by
    intro X early prev p m hX h
    unfold damagedRecord
    rw [List.flatMap_cons, List.flatMap_nil, List.append_nil, h, List.getElem?_map, ← hX, List.getElem?_append_right (le_refl _), Nat.sub_self]
    conv_lhs => unfold survivors
    rw [hd]
    dsimp only
    by_cases hf : e.isFull = true
    · rw [if_pos hf, if_pos hf]
      rfl
    · rw [if_neg hf, if_neg hf]
      rfl
  obtain ⟨X, e', p', h1, h2, h3⟩ := survivors_split A ((e, .kept) :: B) 0 (firstTime ((A ++ (e, .kept) :: B).map Prod.fst)) 0 0
  have h0 := key X _ _ _ _ h2 h1
  rw [zero_add, zero_add] at h0
  refine ⟨?_, ?_, ?_⟩
  · intro hf
    rw [h0, if_pos hf, sub_zero]
  · intro A1 f A2 hA hff hn hf
    obtain ⟨df, hdf⟩ : ∃ df, f.step = some df := Option.isSome_iff_exists.mp (full_step hff)
    obtain ⟨X1, e1, p1, g1, g2, -⟩ := survivors_split A1 ((f, .kept) :: (A2 ++ (e, .kept) :: B)) 0
      (firstTime ((A ++ (e, .kept) :: B).map Prod.fst)) 0 0
    have g3 : survivors e1 p1 (0 + (allSteps A1).sum) (0 + (lostSteps A1).sum) ((f, .kept) :: (A2 ++ (e, .kept) :: B)) =
        ⟨f.T, 0 + (allSteps A1).sum + df, 0, 0 + (lostSteps A1).sum⟩ ::
          survivors 0 f.T (0 + (allSteps A1).sum + df) (0 + (lostSteps A1).sum) (A2 ++ (e, .kept) :: B) := by
      conv_lhs => unfold survivors
      rw [hdf]
      dsimp only
      rw [if_pos hff]
    obtain ⟨X2, e2, p2, k1, k2, k3⟩ := survivors_split A2 ((e, .kept) :: B) 0 f.T (0 + (allSteps A1).sum + df) (0 + (lostSteps A1).sum)
    have hall : survivors 0 (firstTime ((A ++ (e, .kept) :: B).map Prod.fst)) 0 0 (A ++ (e, .kept) :: B) =
        (X1 ++ ⟨f.T, 0 + (allSteps A1).sum + df, 0, 0 + (lostSteps A1).sum⟩ :: X2) ++
          survivors e2 p2 (0 + (allSteps A1).sum + df + (allSteps A2).sum) (0 + (lostSteps A1).sum + (lostSteps A2).sum) ((e, .kept) :: B) := by
      have ea : A ++ (e, Fate.kept) :: B = A1 ++ (f, Fate.kept) :: (A2 ++ (e, Fate.kept) :: B) := by rw [hA]; simp
      rw [ea] at g1 ⊢
      rw [g1, g3, k1]
      simp
    have hlen : (X1 ++ ⟨f.T, 0 + (allSteps A1).sum + df, 0, 0 + (lostSteps A1).sum⟩ :: X2 : List Survivor).length = keptCount A := by
      rw [List.length_append, List.length_cons, g2, k2, hA]
      simp [keptCount, hdf]
    rw [key _ _ _ _ _ hlen hall, if_neg (by simp [hf]), k3 hn, zero_add]
    have es : (allSteps A).sum = (allSteps A1).sum + (df + (allSteps A2).sum) := by rw [hA]; simp [allSteps, hdf]
    have el : (lostSteps A).sum = (lostSteps A1).sum + (lostSteps A2).sum := by rw [hA]; simp [lostSteps]
    rw [es, el]
    congr 2
    ring
  · intro hn hf
    rw [h0, if_neg (by simp [hf]), h3 hn, zero_add]

/-- A full line at 10 s, then letters 10 ms later (lost), letters 10 ms later (kept): the last sample is the second in the record, 10 ms early and without the pressure lost. -/
example : damagedRecord 0 (1 / 1000)
    [[((⟨10000, .sample (Dec.ofNat 1808) 5⟩ : Event), Fate.kept), (⟨10010, .letters 109 112⟩, .lost), (⟨10020, .letters 109 110⟩, .kept)]] =
    [(1000893 / 100000, 5), (1001893 / 100000, 6)] := by
  decide +kernel

end Gemlog
