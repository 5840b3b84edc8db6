import Verif.Props.FirstRun

/-!
# C46: two serial numbers with the same codes
-/

namespace Gemlog

/-- What a conversion leaves in a converted file does not depend on what was there, unless it leaves the file alone. -/
theorem effect_converted {γ : Type} (name : List Nat) : ∀ (l : List (Instr γ)) (id fmt : List Nat),
    (∀ j : Proc γ, j.id = id → j.fmt = fmt → ∀ d, (effect l j d).get (.converted, name) = d.get (.converted, name)) ∨
      ∃ c, ∀ j : Proc γ, j.id = id → j.fmt = fmt → ∀ d, (effect l j d).get (.converted, name) = some c
  | [], _, _ => .inl fun _ _ _ _ => rfl
  | .isdir _ :: l, id, fmt => by
    rcases effect_converted name l id fmt with h | ⟨c, h⟩
    · exact .inl fun j h1 h2 d => h { j with todo := l } h1 h2 d
    · exact .inr ⟨c, fun j h1 h2 d => h { j with todo := l } h1 h2 d⟩
  | .mkdir _ :: l, id, fmt => by
    rcases effect_converted name l id fmt with h | ⟨c, h⟩
    · exact .inl fun j h1 h2 d => h { j with todo := l } h1 h2 d
    · exact .inr ⟨c, fun j h1 h2 d => h { j with todo := l } h1 h2 d⟩
  | .fail :: l, id, fmt => .inl fun _ _ _ _ => rfl
  | .choose k :: l, id, fmt => by
    have hd : ∀ (j : Proc γ) d, (act (.choose k) j d).2 = d := by intro j d; cases k <;> rfl
    rcases effect_converted name l id fmt with h | ⟨c, h⟩
    · refine .inl fun j h1 h2 d => ?_
      obtain ⟨_, a2, a3, _⟩ := act_identity (.choose k) { j with todo := l } d
      exact (h _ (a2.trans h1) (a3.trans h2) _).trans (by rw [hd])
    · refine .inr ⟨c, fun j h1 h2 d => ?_⟩
      obtain ⟨_, a2, a3, _⟩ := act_identity (.choose k) { j with todo := l } d
      exact h _ (a2.trans h1) (a3.trans h2) _
  | .start k x :: l, id, fmt => by
    have hd : ∀ (j : Proc γ) d, (act (.start k x) j d).2.get (.converted, name) = d.get (.converted, name) := by
      intro j d
      cases k <;> simp only [act, Proc.file] <;> split <;> simp [Disk.get_put]
    rcases effect_converted name l id fmt with h | ⟨c, h⟩
    · refine .inl fun j h1 h2 d => ?_
      obtain ⟨_, a2, a3, _⟩ := act_identity (.start k x) { j with todo := l } d
      exact (h _ (a2.trans h1) (a3.trans h2) _).trans (by rw [hd])
    · refine .inr ⟨c, fun j h1 h2 d => ?_⟩
      obtain ⟨_, a2, a3, _⟩ := act_identity (.start k x) { j with todo := l } d
      exact h _ (a2.trans h1) (a3.trans h2) _
  | .extend k x :: l, id, fmt => by
    have hd : ∀ (j : Proc γ) d, (act (.extend k x) j d).2.get (.converted, name) = d.get (.converted, name) := by
      intro j d
      cases k <;> simp only [act, Proc.file] <;> split <;> simp [Disk.get_put]
    rcases effect_converted name l id fmt with h | ⟨c, h⟩
    · refine .inl fun j h1 h2 d => ?_
      obtain ⟨_, a2, a3, _⟩ := act_identity (.extend k x) { j with todo := l } d
      exact (h _ (a2.trans h1) (a3.trans h2) _).trans (by rw [hd])
    · refine .inr ⟨c, fun j h1 h2 d => ?_⟩
      obtain ⟨_, a2, a3, _⟩ := act_identity (.extend k x) { j with todo := l } d
      exact h _ (a2.trans h1) (a3.trans h2) _
  | .segment a x :: l, id, fmt => by
    rcases effect_converted name l id fmt with h | ⟨c, h⟩
    · by_cases hn : convertedName id fmt a = name
      · refine .inr ⟨[x], fun j h1 h2 d => ?_⟩
        refine (h { j with todo := l } h1 h2 (d.put (.converted, convertedName j.id j.fmt a) [x])).trans ?_
        subst h1 h2
        simp [Disk.get_put, hn]
      · refine .inl fun j h1 h2 d => ?_
        refine (h { j with todo := l } h1 h2 (d.put (.converted, convertedName j.id j.fmt a) [x])).trans ?_
        subst h1 h2
        simp [Disk.get_put, hn]
    · exact .inr ⟨c, fun j h1 h2 d => h { j with todo := l } h1 h2 (d.put (.converted, convertedName j.id j.fmt a) [x])⟩

/-- One conversion of a batch after the other. -/
theorem run_at {γ : Type} : ∀ (n : Nat) (l : List (Proc γ)) (p : Proc γ) (r : List (Proc γ)) (d : Disk γ),
    ∃ p' d', runSchedule (List.replicate n 0) ([p], d) = ([p'], d') ∧ runSchedule (List.replicate n l.length) (l ++ p :: r, d) = (l ++ p' :: r, d')
  | 0, l, p, r, d => ⟨p, d, rfl, rfl⟩
  | n + 1, l, p, r, d => by
    obtain ⟨p', d', h1, h2⟩ := run_at n l (stepProc p d).1 r (stepProc p d).2
    refine ⟨p', d', ?_, ?_⟩
    · rw [← h1]
      rfl
    · rw [← h2]
      show runSchedule (List.replicate n l.length) (stepAt (l ++ p :: r, d) l.length) = _
      congr 1
      unfold stepAt
      simp

/-- Two conversions, the first one first. -/
theorem run_both {γ : Type} (i j : Proc γ) (d : Disk γ) :
    ∃ i' j' sched sched', i'.todo = [] ∧ j'.todo = [] ∧ runSchedule sched ([i, j], d) = ([i', j'], aloneDisk j (aloneDisk i d)) ∧
      ∃ i'' j'', i''.todo = [] ∧ j''.todo = [] ∧ runSchedule sched' ([i, j], d) = ([i'', j''], aloneDisk i (aloneDisk j d)) := by
  obtain ⟨i', d1, a1, a2⟩ := run_at (2 * i.todo.length) [] i [j] d
  obtain ⟨j', d2, b1, b2⟩ := run_at (2 * j.todo.length) [i'] j [] d1
  obtain ⟨j'', d3, e1, e2⟩ := run_at (2 * j.todo.length) [i] j [] d
  obtain ⟨i'', d4, f1, f2⟩ := run_at (2 * i.todo.length) [] i [j''] d3
  have end_ : ∀ (p p' : Proc γ) (x y : Disk γ), runSchedule (List.replicate (2 * p.todo.length) 0) ([p], x) = ([p'], y) → p'.todo = [] := by
    intro p p' x y h
    obtain ⟨q, hq, ht⟩ := C46_alone_ends p x
    rw [h] at hq
    cases hq
    exact ht
  have al : ∀ (p p' : Proc γ) (x y : Disk γ), runSchedule (List.replicate (2 * p.todo.length) 0) ([p], x) = ([p'], y) → y = aloneDisk p x := by
    intro p p' x y h
    unfold aloneDisk
    rw [h]
  have h1 := al _ _ _ _ a1
  have h2 := al _ _ _ _ b1
  have h3 := al _ _ _ _ e1
  have h4 := al _ _ _ _ f1
  subst h1 h3
  subst h2 h4
  refine ⟨i', j', List.replicate (2 * i.todo.length) 0 ++ List.replicate (2 * j.todo.length) 1,
    List.replicate (2 * j.todo.length) 1 ++ List.replicate (2 * i.todo.length) 0, end_ _ _ _ _ a1, end_ _ _ _ _ b1, ?_,
    i'', j'', end_ _ _ _ _ f1, end_ _ _ _ _ e1, ?_⟩
  · exact (List.foldl_append).trans ((congrArg (runSchedule (List.replicate (2 * j.todo.length) 1)) a2).trans b2)
  · exact (List.foldl_append).trans ((congrArg (runSchedule (List.replicate (2 * i.todo.length) 0)) e2).trans f2)

/-- **C46 is violated by every codes file that gives two serial numbers the same codes**, if both conversions write a segment that starts in the same second. The file is that of
whichever comes last: with one schedule it is what the first conversion writes on its own, with another what the second one writes. -/
theorem C46_violated_codes {γ : Type} (i j : Proc γ) (hi : Started i) (hj : Started j) (hid : i.id = j.id) (hfmt : i.fmt = j.fmt) (d : Disk γ) (a : Int)
    (ha : Datable a) (hwi : (aloneDisk i d).get (.converted, convertedName i.id i.fmt a) ≠ d.get (.converted, convertedName i.id i.fmt a))
    (hwj : (aloneDisk j d).get (.converted, convertedName j.id j.fmt a) ≠ d.get (.converted, convertedName j.id j.fmt a)) :
    (∃ sched, (∀ p ∈ (runSchedule sched ([i, j], d)).1, p.todo = []) ∧
      (runSchedule sched ([i, j], d)).2.get (.converted, convertedName i.id i.fmt a) = (aloneDisk i d).get (.converted, convertedName i.id i.fmt a)) ∧
    ∃ sched, (∀ p ∈ (runSchedule sched ([i, j], d)).1, p.todo = []) ∧
      (runSchedule sched ([i, j], d)).2.get (.converted, convertedName i.id i.fmt a) = (aloneDisk j d).get (.converted, convertedName i.id i.fmt a) := by
  have key : ∀ p : Proc γ, Started p → p.id = i.id → p.fmt = i.fmt →
      (aloneDisk p d).get (.converted, convertedName i.id i.fmt a) ≠ d.get (.converted, convertedName i.id i.fmt a) →
      ∀ d', (aloneDisk p d').get (.converted, convertedName i.id i.fmt a) = (aloneDisk p d).get (.converted, convertedName i.id i.fmt a) := by
    intro p hp h1 h2 hw d'
    have hown : Owns p (.converted, convertedName i.id i.fmt a) := ⟨a, ha, by rw [h1, h2]⟩
    rw [alone_effect hp d _ hown] at hw ⊢
    rw [alone_effect hp d' _ hown]
    rcases effect_converted (convertedName i.id i.fmt a) p.todo i.id i.fmt with h | ⟨c, h⟩
    · exact absurd (h p h1 h2 d) hw
    · rw [h p h1 h2, h p h1 h2]
  obtain ⟨i', j', s, s', h1, h2, h3, i'', j'', h4, h5, h6⟩ := run_both i j d
  rw [← hid, ← hfmt] at hwj
  constructor
  · refine ⟨s', ?_, ?_⟩
    · rw [h6]; simp [h4, h5]
    · rw [h6]
      exact key i hi rfl rfl hwi _
  · refine ⟨s, ?_, ?_⟩
    · rw [h3]; simp [h1, h2]
    · rw [h3]
      exact key j hj hid.symm hfmt.symm hwj _

/-- The hypotheses hold for the two conversions of `C46_violated_same_codes`, and the contents differ. -/
example : (aloneDisk procA ⟨[.gps, .metadata, .converted], []⟩).get (.converted, convertedName procA.id procA.fmt 160000000000) = some [3] ∧
    (aloneDisk procC ⟨[.gps, .metadata, .converted], []⟩).get (.converted, convertedName procA.id procA.fmt 160000000000) = some [8] ∧
    procA.id = procC.id ∧ procA.fmt = procC.fmt ∧ Datable 160000000000 := by
  refine ⟨by decide +kernel, by decide +kernel, by decide +kernel, by decide +kernel, by unfold Datable; decide +kernel⟩

end Gemlog
