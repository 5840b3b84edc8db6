import Verif.Props.Reference

/-!
# C89: incomplete lines
-/

namespace Gemlog

theorem foldlM_fails {α σ ε : Type} {f : σ → α → Except ε σ} {a : α} (h : ∀ s, ∃ e, f s a = .error e) : ∀ (l : List α) (s : σ), a ∈ l → ∃ e, l.foldlM f s = .error e
  | b :: l, s, hm => by
    rw [List.foldlM_cons]
    cases hb : f s b with
    | error e => exact ⟨e, rfl⟩
    | ok s' =>
      rcases List.mem_cons.mp hm with rfl | hm
      · obtain ⟨e, he⟩ := h s
        rw [he] at hb; cases hb
      · exact foldlM_fails h l s' hm

theorem refCheck_short (l : List Rat) (h : l.length ≤ 8) : refCheck l = none := by
  match l with
  | [] | [_] | [_, _] | [_, _, _] | [_, _, _, _] | [_, _, _, _, _] | [_, _, _, _, _, _] | [_, _, _, _, _, _, _] | [_, _, _, _, _, _, _, _] => rfl
  | _ :: _ :: _ :: _ :: _ :: _ :: _ :: _ :: _ :: _ => simp only [List.length_cons] at h; omega

/-- **C89 (where they differ): cut lines.** A single GPS line anywhere in the file that ends before the latitude, or a line of samples, GPS or status with a value that is not a number:
the reference reader fails, and returns nothing of the whole file. -/
theorem C89_cut_line (content : List Nat) (offset : Rat) (rg : Bool) (c : Nat) (f : List Nat) (fs : List (List Nat)) (hrow : (c :: f) :: fs ∈ csvRows content)
    (hbad : (c = 71 ∧ fs.length ≤ 8) ∨ (c = 68 ∧ ∃ x ∈ f :: fs, pyFloat x = none) ∨ ((c = 71 ∨ c = 77) ∧ ∃ x ∈ fs, pyFloat x = none)) :
    ∃ e, refRead (some content) offset rg = .error e := by
  have hnone : ∀ l : List (List Nat), (∃ x ∈ l, pyFloat x = none) → l.mapM pyFloat = none := by
    intro l
    induction l with
    | nil => rintro ⟨x, hx, -⟩; cases hx
    | cons a l ih =>
      rintro ⟨x, hx, hn⟩
      rw [List.mapM_cons]
      rcases List.mem_cons.mp hx with rfl | hx
      · rw [hn]; rfl
      · rw [ih ⟨x, hx, hn⟩]
        cases pyFloat a <;> rfl
  have hfail : ∀ st, ∃ e, refRow st ((c :: f) :: fs) = .error e := by
    intro st
    rcases hbad with ⟨rfl, hlen⟩ | ⟨rfl, hx⟩ | ⟨hc, hx⟩
    · simp only [refRow, if_neg (show ¬ (71 : Nat) = 68 by decide), true_or, if_true]
      unfold refData
      split
      · rename_i v vs heq
        have hl := mapM_length pyFloat _ _ heq
        simp only [if_neg (show ¬ (71 : Nat) = 68 by decide), if_neg (show ¬ (71 : Nat) = 77 by decide)]
        unfold refFix
        rw [refCheck_short _ (by simp only [List.length_cons] at hl ⊢; omega)]
        exact ⟨_, rfl⟩
      · exact ⟨_, rfl⟩
    · simp only [refRow, if_true]
      unfold refData
      rw [hnone _ hx]
      exact ⟨_, rfl⟩
    · have h68 : ¬ c = 68 := by rcases hc with rfl | rfl <;> decide
      simp only [refRow, if_neg h68, if_pos hc]
      unfold refData
      rw [hnone _ hx]
      exact ⟨_, rfl⟩
  obtain ⟨e, he⟩ := foldlM_fails hfail (csvRows content) ⟨pyMod offset (2 ^ 13), [], [], []⟩ hrow
  refine ⟨e, ?_⟩
  unfold refRead
  simp only
  rw [he]

/-- A file of two samples that ends within a GPS line. -/
example : (71 :: []) :: [bytes "71", bytes "70", bytes "20"] ∈ csvRows (bytes "D70,3\nD80,4\nG,71,70,20") ∧
    (refRead (some (bytes "D70,3\nD80,4\n")) 0 false).toBool = true := by decide +kernel

end Gemlog
