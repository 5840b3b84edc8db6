import Verif.Props.Windows

/-!
# C51: exactly when the columns have one entry per window
-/

namespace Gemlog

/-- One window adds to the column `t_mid` its middle, and before it the result of that name if there is one. -/
theorem putWindow_mid {V : Type} (i : Nat) (t : WTable V) (w : List (List Nat × V)) (mid : Rat) (hnd : (w.map Prod.fst).Nodup) (col : List (WCell V))
    (h : t.lookup (bytes "t_mid") = some col) :
    ∃ col', (putWindow i t w mid).lookup (bytes "t_mid") = some col' ∧
      col'.length = col.length + 1 + if bytes "t_mid" ∈ w.map Prod.fst then 1 else 0 := by
  unfold putWindow
  rw [lookup_appendCell, lookup_fillMissing, lookup_putValues i _ w t hnd]
  cases hl : w.lookup (bytes "t_mid") with
  | none =>
    refine ⟨_, by simp [h]; rfl, ?_⟩
    rw [if_neg ((lookup_none_iff _ _).mp hl)]
    simp
  | some v =>
    refine ⟨_, by simp [h]; rfl, ?_⟩
    rw [if_pos (by
      by_contra hno
      rw [(lookup_none_iff _ _).mpr hno] at hl
      cases hl)]
    simp

theorem windowLoop_mid {V : Type} (f : List WTrace → Except Exc (List (List Nat × V))) (st : List WTrace) (win : Rat) :
    ∀ (starts : List Rat) (i : Nat) (t r : WTable V) (col : List (WCell V)),
      (∀ s ∈ starts, ∀ w, f (windowData st win s) = .ok w → (w.map Prod.fst).Nodup) →
      t.lookup (bytes "t_mid") = some col → windowLoop f st win i t starts = .ok r →
      ∃ col', r.lookup (bytes "t_mid") = some col' ∧ col.length + starts.length ≤ col'.length ∧
        (col'.length = col.length + starts.length → ∀ s ∈ starts, ∀ w, f (windowData st win s) = .ok w → bytes "t_mid" ∉ w.map Prod.fst)
  | [], i, t, r, col, _, h, hr => by
    simp only [windowLoop, Except.ok.injEq] at hr
    subst hr
    exact ⟨col, h, by simp, by simp⟩
  | s :: rest, i, t, r, col, hf, h, hr => by
    rw [windowLoop] at hr
    cases hfs : f (windowData st win s) with
    | error e => rw [hfs] at hr; exact absurd hr (by simp)
    | ok w =>
      rw [hfs] at hr
      dsimp only at hr
      obtain ⟨c1, h1, hl1⟩ := putWindow_mid i t w (s + win / 2) (hf s List.mem_cons_self _ hfs) col h
      obtain ⟨c2, h2, hl2, hall⟩ := windowLoop_mid f st win rest (i + 1) _ r c1 (fun s hs => hf s (List.mem_cons_of_mem _ hs)) h1 hr
      refine ⟨c2, h2, by rw [List.length_cons]; omega, ?_⟩
      intro he s' hs' w' hw'
      rw [List.length_cons] at he
      rcases List.mem_cons.mp hs' with rfl | hs'
      · obtain rfl : w = w' := by rw [hfs] at hw'; exact Except.ok.inj hw'
        intro hm
        rw [if_pos hm] at hl1
        omega
      · exact hall (by split_ifs at hl1 <;> omega) s' hs' w' hw'

/-- **C51, exactly.** Take any analysis that succeeds in every window. Every column of the result has exactly one entry per window if and only if the analysis of no window returns
a value named `t_mid`. -/
theorem C51_exact {V : Type} (f : List WTrace → Except Exc (List (List Nat × V))) (st : List WTrace) (win overlap : Rat)
    (starts : List Rat) (r : WTable V) (hs : windowStarts st win overlap = .ok starts)
    (hf : ∀ s ∈ starts, ∀ w, f (windowData st win s) = .ok w → (w.map Prod.fst).Nodup) (hr : applyWindows f st win overlap = .ok r) :
    (∀ key col, r.col key = some col → col.length = starts.length) ↔
      ∀ s ∈ starts, ∀ w, f (windowData st win s) = .ok w → bytes "t_mid" ∉ w.map Prod.fst := by
  constructor
  · intro hall
    have hr' := hr
    unfold applyWindows at hr'
    rw [hs] at hr'
    dsimp only at hr'
    obtain ⟨col, h1, -, h2⟩ := windowLoop_mid f st win starts 0 _ r [] hf rfl hr'
    exact h2 (by rw [hall _ col h1]; simp)
  · intro hno key col hcol
    obtain ⟨ws, -, -, hmid, hkeys⟩ := C51_aligned_partial f st win overlap starts r hs (fun s hs w hw => ⟨hf s hs w hw, hno s hs w hw⟩) hr
    by_cases hk : key = bytes "t_mid"
    · rw [hk, hmid] at hcol
      rw [← Option.some.inj hcol]
      simp
    · exact ((hkeys key hk).2 col hcol).1

/-- An analysis that returns `t_mid` in one of four windows: five entries in that column, four in the other. -/
example : ((applyWindows (fun d => .ok ((bytes "n", (1 : Rat)) :: if (d.flatMap fun tr => tr.samples.map Prod.snd).any (fun x => decide (100 < x)) then
      [(bytes "t_mid", 2)] else [])) demoWave 5 (1 / 2)).toOption.map fun r => ((r.col (bytes "t_mid")).map List.length, (r.col (bytes "n")).map List.length)) =
    some (some 5, some 4) := by decide +kernel

end Gemlog
