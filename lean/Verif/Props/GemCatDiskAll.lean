import Verif.Props.GemCatDisk

/-! # C98: merging all raw files into one -/

namespace Gemlog

theorem addToLast_length (t : List Nat) : ∀ outs : List (List Nat × List Nat), (addToLast t outs).length = outs.length := by
  intro outs
  induction outs with
  | nil => rfl
  | cons o l ih =>
    cases l with
    | nil => rfl
    | cons o' l => simpa [addToLast] using ih

theorem catLoop_all_one {env : CatEnv} {sn : List Nat} : ∀ (fs : List (List Nat)) (st st' : CatState),
    catLoop env true sn fs st = .ok st' → st.outs.length ≤ 1 → st'.outs.length ≤ 1 := by
  intro fs
  induction fs with
  | nil =>
    intro st st' h hl
    rw [← Except.ok.inj h]
    exact hl
  | cons f fs ih =>
    intro st st' h hl
    rw [catLoop] at h
    cases hs : catStep env true sn st f with
    | error x => rw [hs] at h; simp at h
    | ok s =>
      rw [hs] at h
      refine ih s st' h ?_
      unfold catStep at hs
      rw [if_pos rfl] at hs
      split_ifs at hs
      · rw [← Except.ok.inj hs]
        simp
      · cases ha : appendText env f st.prev with
        | error x => rw [ha] at hs; simp [Except.map] at hs
        | ok t =>
          rw [ha] at hs
          rw [← Except.ok.inj hs]
          simpa [addToLast_length] using hl

/-- **C98, result, all files into one.** The same holds if all raw files are merged into one file: it succeeds exactly if they can be merged, and then
one file, with the merged content, has been written into the output folder, and no other file has changed. -/
theorem C98_result_all (env : CatEnv) (inD outD ext : List Nat) (names : List (List Nat)) (hne : inD ≠ outD) (d : Folders) :
    (∀ x, gemCat env true ext (d.raw inD names) = .error x → (gemCatRun env true inD outD ext names d).2 = .error x) ∧
    ∀ outs, gemCat env true ext (d.raw inD names) = .ok outs → (gemCatRun env true inD outD ext names d).2 = .ok () ∧
      ∃ name content, outs = [(name, content)] ∧ applyOps d (gemCatRun env true inD outD ext names d).1 (outD, name) = some content ∧
      ∀ q, q ≠ (outD, name) → applyOps d (gemCatRun env true inD outD ext names d).1 q = d q := by
  obtain ⟨r1, r2⟩ := gemCatRun_is env true inD outD ext names hne d
  refine ⟨r1, ?_⟩
  intro outs ho
  obtain ⟨h1, h2⟩ := r2 outs ho
  refine ⟨h1, ?_⟩
  have hone : ∃ o, outs = [o] := by
    have hle : outs.length ≤ 1 ∧ outs ≠ [] := by
      unfold gemCat gemCatFiles at ho
      cases hfs : (sortRaw ((d.raw inD names).filter fun e => catName ext e.name)).map RawFile.content with
      | nil => rw [hfs] at ho; simp at ho
      | cons f fs =>
        rw [hfs] at ho
        simp only at ho
        cases hsn : env.readSN f with
        | none => rw [hsn] at ho; simp at ho
        | some sn =>
          rw [hsn] at ho
          simp only at ho
          cases hl : catLoop env true sn (f :: fs) ⟨[], [], false⟩ with
          | error x => rw [hl] at ho; simp [Except.map] at ho
          | ok st =>
            rw [hl] at ho
            rw [← Except.ok.inj ho]
            refine ⟨catLoop_all_one _ _ _ hl (by simp), ?_⟩
            have keep : ∀ (l : List (List Nat)) (s s' : CatState), catLoop env true sn l s = .ok s' → s.outs ≠ [] → s'.outs ≠ [] := by
              intro l
              induction l with
              | nil => intro s s' h hs; rw [← Except.ok.inj h]; exact hs
              | cons x l ih =>
                intro s s' h hs
                rw [catLoop] at h
                unfold catStep at h
                rw [if_pos rfl, if_neg hs] at h
                cases ha : appendText env x s.prev with
                | error y => rw [ha] at h; simp [Except.map] at h
                | ok t =>
                  rw [ha] at h
                  refine ih _ s' h ?_
                  intro he
                  have := addToLast_length t s.outs
                  simp only at he
                  rw [he] at this
                  exact hs (List.length_eq_zero_iff.mp this.symm)
            rw [catLoop] at hl
            unfold catStep at hl
            rw [if_pos rfl, if_pos rfl] at hl
            exact keep fs _ st hl (by simp)
    match outs, hle with
    | [o], _ => exact ⟨o, rfl⟩
    | _ :: _ :: _, h => simp at h
  obtain ⟨⟨name, content⟩, rfl⟩ := hone
  rw [h2]
  obtain ⟨p1, p2⟩ := putAll_get outD [(name, content)] d (by simp)
  exact ⟨name, content, rfl, p1 (name, content) (by simp), fun q hq => p2 q (by simpa using hq)⟩

/-- Two raw files become one in another folder. -/
example : (gemCat demoCatEnv true [] (twoRaw.raw (bytes "raw") [bytes "FILE0001.077", bytes "FILE0002.077"])).toOption.map (List.map Prod.fst)
    = some [bytes "FILE9999.077"] := by decide +kernel

end Gemlog
