import Verif.Props.Moments

/-!
# C108: a start given as a number, less than a file length before the end of the data
-/

namespace Gemlog

theorem chunk_len (i : Bool) (n : Nat) (l r : Option Int) : (fillChunk i n l r).length = n := by
  unfold fillChunk
  split <;> simp

theorem addOrdered_before {E : Int} (i : Bool) (x y : MTrace) (hxy : x.start ≤ y.start) (hx : x.start + x.data.length ≤ E) (hy : y.start + y.data.length ≤ E) :
    (addOrdered i x y).start + (addOrdered i x y).data.length ≤ E := by
  unfold addOrdered MTrace.stop
  simp only
  split_ifs with h1 h2 h3 h4 <;> (try simp only [List.length_append, List.length_take, List.length_drop, chunk_len]) <;> omega

theorem addTraces_before {E : Int} (i : Bool) (a b : MTrace) (ha : a.start + a.data.length ≤ E) (hb : b.start + b.data.length ≤ E) :
    (addTraces i a b).start + (addTraces i a b).data.length ≤ E := by
  unfold addTraces
  split_ifs with h
  · exact addOrdered_before i a b h ha hb
  · exact addOrdered_before i b a (by omega) hb ha

theorem mergeTraces_before {E : Int} (i : Bool) (st : List MTrace) (h : ∀ a ∈ st, a.start + a.data.length ≤ E) (m : MTrace)
    (hm : mergeTraces i st = some m) : m.start + m.data.length ≤ E := by
  unfold mergeTraces at hm
  have h' : ∀ a ∈ sortTraces st, a.start + a.data.length ≤ E := fun a ha => h a (mem_sortTraces ha)
  cases hs : sortTraces st with
  | nil => rw [hs] at hm; simp at hm
  | cons a l =>
    rw [hs] at hm h'
    simp only [Option.some.injEq] at hm
    rw [← hm]
    have key : ∀ (l : List MTrace) (a : MTrace), a.start + a.data.length ≤ E → (∀ b ∈ l, b.start + b.data.length ≤ E) →
        (l.foldl (addTraces i) a).start + (l.foldl (addTraces i) a).data.length ≤ E := by
      intro l
      induction l with
      | nil => intro a ha _; exact ha
      | cons b l ih =>
        intro a ha hb
        rw [List.foldl_cons]
        exact ih _ (addTraces_before i a b ha (hb b (by simp))) fun c hc => hb c (by simp [hc])
    exact key l a (h' a (by simp)) fun b hb => h' b (by simp [hb])

theorem splitData_before (k : Int) (cur : List Int) (l : List (Option Int)) :
    ∀ tr ∈ splitData k cur l, tr.start + tr.data.length ≤ k + l.length := by
  induction l generalizing k cur with
  | nil =>
    unfold splitData
    split_ifs with hc
    · intro tr htr; simp at htr
    · intro tr htr
      rw [List.mem_singleton.mp htr]
      simp
  | cons a l ih =>
    intro tr htr
    rw [List.length_cons]
    push_cast
    cases a with
    | some x =>
      unfold splitData at htr
      have := ih _ _ tr htr
      omega
    | none =>
      unfold splitData at htr
      split_ifs at htr with hc
      · have := ih _ _ tr htr
        omega
      · rcases List.mem_cons.mp htr with h' | h'
        · rw [h']
          simp
          omega
        · have := ih _ _ tr h'
          omega

theorem mergeGaps_before {E : Int} {st : List Trace} (h : ∀ tr ∈ st, tr.start + tr.data.length ≤ E) :
    ∀ tr ∈ mergeGaps st, tr.data ≠ [] ∧ tr.start + tr.data.length ≤ E := by
  unfold mergeGaps
  have h' : ∀ a ∈ st.map Trace.toM, a.start + a.data.length ≤ E := by
    intro a ha
    obtain ⟨tr, h1, rfl⟩ := List.mem_map.mp ha
    simpa [Trace.toM] using h tr h1
  cases hs : st.map Trace.toM with
  | nil => intro tr htr; simp at htr
  | cons a rest =>
    rw [hs] at h'
    simp only
    have key : ∀ (l out : List MTrace), (∀ b ∈ out, b.start + b.data.length ≤ E) → (∀ b ∈ l, b.start + b.data.length ≤ E) →
        ∀ b ∈ l.foldl mergeStep out, b.start + b.data.length ≤ E := by
      intro l
      induction l with
      | nil => intro out ho _; exact ho
      | cons c l ih =>
        intro out ho hl
        rw [List.foldl_cons]
        refine ih _ ?_ fun b hb => hl b (by simp [hb])
        intro b hb
        unfold mergeStep at hb
        cases hg : out.getLast? with
        | none => rw [hg] at hb; exact ho b hb
        | some tr1 =>
          rw [hg] at hb
          simp only at hb
          split_ifs at hb
          · rcases List.mem_append.mp hb with hb | hb
            · exact ho b hb
            · rw [Option.mem_toList] at hb
              refine mergeTraces_before true [tr1, c] ?_ b hb
              intro x hx
              rcases List.mem_cons.mp hx with hx | hx
              · rw [hx]; exact ho _ (List.mem_of_getLast? hg)
              · rw [List.mem_singleton.mp hx]; exact hl c (by simp)
          · rcases List.mem_append.mp hb with hb | hb
            · exact ho b hb
            · rw [List.mem_singleton.mp hb]; exact hl c (by simp)
    cases hm : mergeTraces false (rest.foldl mergeStep [a]) with
    | none => intro tr htr; simp at htr
    | some m =>
      intro tr htr
      have h1 := mergeTraces_before false _ (key rest [a] (by intro b hb; rw [List.mem_singleton.mp hb]; exact h' a (by simp))
        fun b hb => h' b (by simp [hb])) m hm
      have h2 := splitData_before m.start [] m.data tr htr
      have h3 := splitData_above m.start m.start [] m.data (by simp) tr htr
      exact ⟨h3.1, by omega⟩

theorem readBlocks_before {j : Job} {E : Int} (hread : ∀ b d, j.read b = .ok d → ∀ tr ∈ d, tr.data ≠ [] ∧ tr.start + tr.data.length ≤ E) (tt2 : Int) (out : List Trace)
    (n : Nat) (n1 : Rat) (p : List Trace) (reads : List (List Int)) (h : ∀ tr ∈ p, tr.data ≠ [] ∧ tr.start + tr.data.length ≤ E) :
    (readBlocks j tt2 out n n1 p reads).Sat (fun r => ∀ tr ∈ r.2.1, tr.data ≠ [] ∧ tr.start + tr.data.length ≤ E) (fun o => o = out) := by
  induction n generalizing n1 p reads with
  | zero => trivial
  | succ n ih =>
    rw [readBlocks]
    cases p.getLast? with
    | none => exact rfl
    | some tr =>
      simp only
      split_ifs with c
      · cases hd : j.read (j.block n1) with
        | error x =>
          simp only
          split_ifs with c2
          · exact ih _ _ _ h
          · exact rfl
        | ok d =>
          cases d with
          | nil => exact ih _ _ _ h
          | cons a d =>
            refine ih _ _ _ (mergeGaps_before ?_)
            intro tr htr
            rcases List.mem_append.mp htr with h' | h'
            · exact (h tr h').2
            · exact (hread _ _ hd tr h').2
      · exact h

/-- **C108 is violated for `t1`: near the end of the data.** Let `t1` be given as a number of seconds at or after the first sample, and let all data end less than a file length after it.
If there is more than one block of files, the conversion fails, and nothing at all is written. (Given as an instant, all samples from `t1` on are written: `C29_given_start`.) -/
theorem C108_violated_start_short (j : Job) (t adj : Int) (tr0 : Trace) (d0 : List Trace)
    (hfirst : j.read (j.block (j.nums.head?.getD 0 : Int)) = .ok (tr0 :: d0)) (hbefore : 10000 * tr0.start ≤ t) (hend : t ≤ j.t2)
    (hnum : j.nums.head?.getD 0 ≤ j.last) (hmore : ((j.nums.head?.getD 0 : Int) : Rat) + 12 * j.blockdays ≤ j.last) (E : Int)
    (hE : 10000 * (E - 1) < t + j.L) (hread : ∀ b d, j.read b = .ok d → ∀ tr ∈ d, tr.data ≠ [] ∧ tr.start + tr.data.length ≤ E) (n : Nat) :
    convertAt j false (some (.num t)) adj n = .running ∨ ∃ x, convertAt j false (some (.num t)) adj n = .raised x [] := by
  unfold convertAt
  cases n with
  | zero => exact .inl rfl
  | succ n =>
    have hf : firstBlock j (n + 1) (j.nums.head?.getD 0 : Int) [] = .done ((j.nums.head?.getD 0 : Int) + 12 * j.blockdays, tr0 :: d0,
        [] ++ [j.block (j.nums.head?.getD 0 : Int)]) := by
      rw [firstBlock, if_pos (by exact_mod_cast hnum), hfirst]
    have h1 : firstHour (.num t) (tr0 :: d0) = .num t := by
      rw [firstHour_cons, if_neg (show ¬ 10000 * tr0.start > (Moment.num t).time from not_lt.mpr hbefore)]
    rw [hf]
    simp only [Run.bind, startMoment]
    rw [h1, mainLoopAt, if_neg (not_lt.mpr hmore), if_neg (show ¬ (Moment.num t).time > j.t2 from not_lt.mpr hend)]
    dsimp only
    have hb := readBlocks_before (E := E) hread (min j.t2 (truncTime (Moment.num t).time j.day + j.day)) [] n
      ((j.nums.head?.getD 0 : Int) + 12 * j.blockdays) (tr0 :: d0) ([] ++ [j.block (j.nums.head?.getD 0 : Int)])
      (hread _ _ hfirst)
    cases hr : readBlocks j (min j.t2 (truncTime (Moment.num t).time j.day + j.day)) [] n
      ((j.nums.head?.getD 0 : Int) + 12 * j.blockdays) (tr0 :: d0) ([] ++ [j.block (j.nums.head?.getD 0 : Int)]) with
    | running => exact .inl rfl
    | raised x o =>
      rw [hr] at hb
      have : o = [] := hb
      exact .inr ⟨x, by rw [this]; rfl⟩
    | done r =>
      rw [hr] at hb
      simp only [Run.bind]
      cases n with
      | zero => exact .inl rfl
      | succ n =>
        rw [writeFullAt]
        cases hl : r.2.1.getLast? with
        | none => exact .inr ⟨_, rfl⟩
        | some tr =>
          obtain ⟨h4, h2⟩ : tr.data ≠ [] ∧ tr.start + tr.data.length ≤ E := hb tr (List.mem_of_getLast? hl)
          have h3 : ¬ (Moment.num t).time + j.L ≤ 10000 * tr.stop := by
            unfold Trace.stop
            rw [if_neg (by simpa using h4)]
            simp only [Moment.time]
            omega
          simp only
          rw [if_neg h3]
          simp only
          cases hp : r.2.1 with
          | nil => rw [hp] at hl; cases hl
          | cons a q => exact .inr ⟨.other, by simp [trimAt]⟩

/-- Files of two hours, data of a few seconds in two blocks. -/
example : (∀ n, convertAt { momentJob with L := 7200000000, nums := [3, 40] } false (some (.num 10799990000)) 0 n = .running ∨
      ∃ x, convertAt { momentJob with L := 7200000000, nums := [3, 40] } false (some (.num 10799990000)) 0 n = .raised x []) ∧
    convertAt { momentJob with L := 7200000000, nums := [3, 40] } false (some (.num 10799990000)) 0 9 = .raised .other [] ∧
    (convertAt { momentJob with L := 7200000000, nums := [3, 40] } false (some (.utc 10799990000)) 0 9).segments ≠ [] := by
  refine ⟨fun n => C108_violated_start_short _ _ 0 ⟨1079998, [1, 2]⟩ [⟨1080010, [4]⟩] rfl (by decide) (by decide) (by decide) (by decide +kernel) 1080011 (by decide) ?_ n,
    by decide +kernel, by decide +kernel⟩
  intro b d hd
  simp only [momentJob, Except.ok.injEq] at hd
  rw [← hd]
  decide

end Gemlog
