import Verif.Model.GemCat
import Verif.Spec.RawMerge

/-! # Helper facts about lines and merging -/

namespace Gemlog

theorem textLinesGo_line : ∀ (body cur rest : List Nat), (∀ b ∈ body, b ≠ 10) →
    textLinesGo cur (body ++ 10 :: rest) = (cur ++ body ++ [10]) :: textLinesGo [] rest := by
  intro body
  induction body with
  | nil => intro cur rest _; simp [textLinesGo]
  | cons b body ih =>
    intro cur rest h
    rw [List.cons_append, textLinesGo, if_neg (h b (by simp)), ih _ _ (fun x hx => h x (by simp [hx]))]
    simp

theorem textLines_line {body : List Nat} (h : ∀ b ∈ body, b ≠ 10) (rest : List Nat) :
    textLines (body ++ [10] ++ rest) = (body ++ [10]) :: textLines rest := by
  unfold textLines
  rw [List.append_assoc, List.singleton_append, textLinesGo_line _ _ _ h]
  simp

/-- Newline-terminated line. -/
def NlLine (l : List Nat) : Prop := ∃ body, l = body ++ [10] ∧ ∀ b ∈ body, b ≠ 10

theorem textLines_flatten : ∀ (ls : List (List Nat)), (∀ l ∈ ls, NlLine l) → textLines ls.flatten = ls := by
  intro ls
  induction ls with
  | nil => intro _; rfl
  | cons l ls ih =>
    intro h
    obtain ⟨body, rfl, hb⟩ := h l (by simp)
    rw [List.flatten_cons, textLines_line hb, ih (fun x hx => h x (by simp [hx]))]

theorem textLinesGo_flatten : ∀ (content cur : List Nat), (textLinesGo cur content).flatten = cur ++ content := by
  intro content
  induction content with
  | nil => intro cur; unfold textLinesGo; split_ifs with h <;> simp [h]
  | cons b l ih =>
    intro cur
    unfold textLinesGo
    split_ifs with h
    · rw [List.flatten_cons, ih, h]; simp
    · rw [ih]; simp

theorem textLines_join (content : List Nat) : (textLines content).flatten = content := by
  unfold textLines; rw [textLinesGo_flatten]; simp

/-- Some line of the text begins with `c`, in terms of the text. -/
theorem any_head (c : Nat) (hc : c ≠ 10) : ∀ (content cur : List Nat), (∀ b ∈ cur, b ≠ 10) →
    ((∃ l ∈ textLinesGo cur content, l.head? = some c) ↔
      ((cur ++ content).head? = some c ∨ ∃ a b, content = a ++ 10 :: c :: b)) := by
  intro content
  induction content with
  | nil =>
    intro cur hcur
    unfold textLinesGo
    split_ifs with h
    · simp [h]
    · constructor
      · rintro ⟨l, hl, h2⟩
        simp only [List.mem_singleton] at hl
        subst hl
        left; simpa using h2
      · rintro (h2 | ⟨a, b, h2⟩)
        · exact ⟨cur, by simp, by simpa using h2⟩
        · exact absurd (congrArg List.length h2) (by simp)
  | cons x l ih =>
    intro cur hcur
    unfold textLinesGo
    split_ifs with h
    · subst h
      have ih' := ih [] (by simp)
      constructor
      · rintro ⟨y, hy, h2⟩
        rcases List.mem_cons.mp hy with rfl | hy
        · left
          cases cur with
          | nil => simp at h2; exact absurd h2.symm hc
          | cons z cur => simpa using h2
        · rcases ih'.mp ⟨y, hy, h2⟩ with h3 | ⟨a, b, h3⟩
          · right
            cases l with
            | nil => simp at h3
            | cons z l =>
              simp at h3
              exact ⟨[], l, by rw [h3]; rfl⟩
          · exact Or.inr ⟨10 :: a, b, by rw [h3]; rfl⟩
      · rintro (h2 | ⟨a, b, h2⟩)
        · refine ⟨cur ++ [10], by simp, ?_⟩
          cases cur with
          | nil => simp at h2; exact absurd h2.symm hc
          | cons z cur => simpa using h2
        · cases a with
          | nil =>
            simp only [List.nil_append, List.cons.injEq, true_and] at h2
            obtain ⟨y, hy, h3⟩ := ih'.mpr (Or.inl (by rw [h2]; rfl))
            exact ⟨y, List.mem_cons_of_mem _ hy, h3⟩
          | cons z a =>
            simp only [List.cons_append, List.cons.injEq] at h2
            obtain ⟨y, hy, h3⟩ := ih'.mpr (Or.inr ⟨a, b, h2.2⟩)
            exact ⟨y, List.mem_cons_of_mem _ hy, h3⟩
    · rw [ih (cur ++ [x]) (by
        intro b hb
        rcases List.mem_append.mp hb with hb | hb
        · exact hcur b hb
        · simp at hb; rw [hb]; exact h)]
      constructor
      · rintro (h2 | ⟨a, b, h2⟩)
        · left; simpa using h2
        · exact Or.inr ⟨x :: a, b, by rw [h2]; rfl⟩
      · rintro (h2 | ⟨a, b, h2⟩)
        · left; simpa using h2
        · cases a with
          | nil => simp at h2; exact absurd h2.1 h
          | cons z a =>
            simp only [List.cons_append, List.cons.injEq] at h2
            exact Or.inr ⟨a, b, h2.2⟩

theorem hasGps_true {content : List Nat} {g : Bool} (h : hasGps content = some g) : g = true ↔ HasFix content := by
  unfold hasGps at h
  simp only at h
  split_ifs at h with h1
  simp only [Option.some.injEq] at h
  rw [← h, List.any_eq_true]
  have := any_head 71 (by decide) content [] (by simp)
  unfold HasFix
  rw [List.nil_append] at this
  rw [← this]
  constructor
  · rintro ⟨l, hl, h2⟩
    exact ⟨l, (List.mem_filter.mp hl).1, by simpa using h2⟩
  · rintro ⟨l, hl, h2⟩
    refine ⟨l, List.mem_filter.mpr ⟨hl, ?_⟩, by simpa using h2⟩
    cases l with
    | nil => simp at h2
    | cons b l =>
      simp at h2; subst h2
      simp [notBlank]

end Gemlog
