import Verif.Props.ReadBuffer

/-!
# C04: exactly which files are read differently depending on uninitialised memory
-/

namespace Gemlog

theorem cstr_load_two (b c : List Nat) (h : 2 ≤ c.length) : cstr (loadBuf b c) 2 = (c.drop 2).takeWhile (· ≠ 0) := by
  unfold cstr loadBuf
  rw [List.drop_append_of_le_length h]
  generalize c.drop 2 = l
  induction l with
  | nil => simp
  | cons x l ih => rw [List.cons_append, List.takeWhile_cons, List.takeWhile_cons, ih]

theorem cstr_load_one (b : List Nat) (x : Nat) : cstr (loadBuf b [x]) 2 = cstr b 2 := by
  unfold cstr loadBuf
  rfl

theorem step_agree (st : PState) (b1 b2 c : List Nat) (hne : c ≠ []) (h : cstr b1 2 = cstr b2 2) :
    stepLine st (loadBuf b1 c) = stepLine st (loadBuf b2 c) ∧ cstr (loadBuf b1 c) 2 = cstr (loadBuf b2 c) 2 := by
  rcases c with _ | ⟨x, _ | ⟨y, l⟩⟩
  · exact absurd rfl hne
  · have e2 : cstr (loadBuf b1 [x]) 2 = cstr (loadBuf b2 [x]) 2 := by rw [cstr_load_one, cstr_load_one, h]
    refine ⟨?_, e2⟩
    unfold stepLine
    rw [e2]
    rfl
  · exact ⟨step_buf_indep st b1 b2 _ (.inl (by simp)), by rw [cstr_load_two _ _ (by simp), cstr_load_two _ _ (by simp)]⟩

theorem parse_agree : ∀ (cs : List (List Nat)) (st : PState) (b1 b2 : List Nat), (∀ c ∈ cs, c ≠ []) → cstr b1 2 = cstr b2 2 →
    parseChunks st b1 cs = parseChunks st b2 cs := by
  intro cs
  induction cs with
  | nil => intros; rfl
  | cons c cs ih =>
    intro st b1 b2 hc h
    obtain ⟨h1, h2⟩ := step_agree st b1 b2 c (hc c (by simp)) h
    rw [parseChunks_cons, parseChunks_cons, h1, ih _ _ (loadBuf b2 c) (fun x hx => hc x (by simp [hx])) h2]

theorem step_lone (st : PState) (b1 b2 : List Nat) (x : Nat) (hG : x ≠ 71) (hM : x ≠ 77) :
    stepLine st (loadBuf b1 [x]) = stepLine st (loadBuf b2 [x]) := by
  have e : ∀ b, loadBuf b [x] = x :: 0 :: b.drop 2 := fun _ => rfl
  unfold stepLine
  simp only [e, List.getD_cons_zero, List.getD_cons_succ, if_neg hG, if_neg hM]
  rfl

theorem parse_memory : ∀ (cs : List (List Nat)) (st : PState) (b1 b2 : List Nat), (∀ c ∈ cs, c ≠ []) →
    (∀ c ∈ cs.dropLast, c.getLast? = some 10 ∨ c.length = 255) →
    (∀ k, cs ≠ List.replicate k [10] ++ [[71]] ∧ cs ≠ List.replicate k [10] ++ [[77]]) →
    parseChunks st b1 cs = parseChunks st b2 cs := by
  intro cs
  induction cs with
  | nil => intros; rfl
  | cons c cs ih =>
    intro st b1 b2 hne hend hnot
    rw [parseChunks_cons, parseChunks_cons]
    by_cases h10 : c = [10]
    · subst h10
      rw [step_buf_indep st b1 b2 [10] (.inr rfl)]
      congr 1
      refine ih _ _ _ (fun x hx => hne x (by simp [hx])) ?_ ?_
      · intro x hx
        refine hend x ?_
        cases cs with
        | nil => simp at hx
        | cons a l => rw [List.dropLast_cons_of_ne_nil (by simp)]; exact List.mem_cons_of_mem _ hx
      · intro k
        refine ⟨fun h => (hnot (k + 1)).1 ?_, fun h => (hnot (k + 1)).2 ?_⟩ <;> rw [h] <;> rfl
    · by_cases h2 : 2 ≤ c.length
      · rw [step_buf_indep st b1 b2 c (.inl h2)]
        congr 1
        exact parse_agree cs _ _ _ (fun x hx => hne x (by simp [hx])) (by rw [cstr_load_two _ _ h2, cstr_load_two _ _ h2])
      · rcases c with _ | ⟨x, _ | ⟨y, l⟩⟩
        · exact absurd rfl (hne [] (by simp))
        · have hlast : cs = [] := by
            by_contra hcs
            have := hend [x] (by rw [List.dropLast_cons_of_ne_nil hcs]; simp)
            rcases this with h | h
            · simp only [List.getLast?_singleton, Option.some.injEq] at h
              exact h10 (by rw [h])
            · simp at h
          subst hlast
          have hG : x ≠ 71 := fun h => (hnot 0).1 (by rw [h]; rfl)
          have hM : x ≠ 77 := fun h => (hnot 0).2 (by rw [h]; rfl)
          rw [step_lone st b1 b2 x hG hM]
          rfl
        · simp at h2

theorem chunks_newlines (k : Nat) (x : Nat) (hx : x ≠ 10) : fgetsChunks (List.replicate k 10 ++ [x]) = List.replicate k [10] ++ [[x]] := by
  induction k with
  | zero =>
    show chunkGo [] [x] = _
    simp [chunkGo, hx]
  | succ k ih =>
    rw [List.replicate_succ, List.cons_append]
    show chunkGo [] (10 :: _) = _
    rw [show (10 :: (List.replicate k 10 ++ [x]) : List Nat) = [10] ++ (List.replicate k 10 ++ [x]) from rfl, chunkGo_append [10] [] _ rfl]
    rw [List.replicate_succ, List.cons_append, ← ih]
    rfl

theorem parse_newlines (st : PState) (x : Nat) : ∀ (k : Nat) (b : List Nat), parseChunks st b (List.replicate k [10] ++ [[x]]) =
    parseChunks st (x :: 0 :: b.drop 2) [[x]] := by
  intro k
  induction k with
  | zero =>
    intro b
    rw [List.replicate_zero, List.nil_append, parseChunks_cons, parseChunks_cons]
    rfl
  | succ k ih =>
    intro b
    rw [List.replicate_succ, List.cons_append, parseChunks_cons]
    have : stepLine st (loadBuf b [10]) = (none, st) := rfl
    rw [this]
    exact ih _

/-- **C04, uninitialised memory, exactly.** The rows read from a file depend on uninitialised memory (the initial content of the line buffer) if and only if the file
consists of nothing but any number of newlines and then a lone `G` or `M`. -/
theorem C04_memory (content : List Nat) :
    (∀ buf1 buf2, parseGem buf1 content = parseGem buf2 content) ↔
      ¬ ∃ (k : Nat) (x : Nat), (x = 71 ∨ x = 77) ∧ content = List.replicate k 10 ++ [x] := by
  constructor
  · rintro h ⟨k, x, hx, rfl⟩
    have := h [] [0, 0, 55]
    unfold parseGem at this
    rw [chunks_newlines k x (by omega), parse_newlines, parse_newlines] at this
    rcases hx with rfl | rfl <;> revert this <;> decide +kernel
  · intro h buf1 buf2
    obtain ⟨a1, a2, _, _, a5⟩ := chunkGo_cut content [] (by simp) (by simp)
    refine parse_memory _ _ _ _ a2 a5 fun k => ⟨fun hk => h ⟨k, 71, .inl rfl, ?_⟩, fun hk => h ⟨k, 77, .inr rfl, ?_⟩⟩
    all_goals
      rw [List.nil_append] at a1
      rw [← a1]
      change (fgetsChunks content).flatten = _
      rw [show fgetsChunks content = _ from hk]
      simp [List.flatten_replicate_singleton]

/-- Both cases occur: a file that ends in a lone `G` after a sample is read in the same way whatever was in the memory, and a file with nothing but a `G` is not. -/
example : (∀ buf1 buf2, parseGem buf1 (bytes "D100,523\nG") = parseGem buf2 (bytes "D100,523\nG")) ∧
    ¬ ∀ buf1 buf2, parseGem buf1 (bytes "\nG") = parseGem buf2 (bytes "\nG") := by
  refine ⟨(C04_memory _).mpr ?_, fun h => (C04_memory _).mp h ⟨1, 71, .inl rfl, by decide +kernel⟩⟩
  rintro ⟨k, x, hx, h⟩
  have h0 : (bytes "D100,523\nG").head? = some 68 := by decide +kernel
  rw [h] at h0
  cases k with
  | zero => simp at h0; omega
  | succ k => simp [List.replicate_succ] at h0

theorem runChunks_last (c : List Nat) : ∀ (cs : List (List Nat)) (st : PState) (buf : List Nat),
    ∃ b, (runChunks st buf (cs ++ [c])).2 = loadBuf b c := by
  intro cs
  induction cs with
  | nil => intro st buf; exact ⟨buf, rfl⟩
  | cons a cs ih => intro st buf; exact ih _ _

theorem step_letter (st : PState) (b b' : List Nat) (x : Nat) (l : List Nat) (hx : x = 71 ∨ x = 77) (h : cstr b 2 = cstr (loadBuf b' (x :: 44 :: l)) 2) :
    stepLine st (loadBuf b [x]) = stepLine st (loadBuf b' (x :: 44 :: l)) := by
  have e : loadBuf b' (x :: 44 :: l) = x :: 44 :: (l ++ 0 :: b'.drop (l.length + 3)) := rfl
  have e1 : loadBuf b [x] = x :: 0 :: b.drop 2 := rfl
  have e2 : cstr (x :: 0 :: b.drop 2) 2 = cstr (x :: 44 :: (l ++ 0 :: b'.drop (l.length + 3))) 2 := by rw [← e, ← h]; rfl
  unfold stepLine
  simp only [e, e1, e2, List.getD_cons_zero]
  rcases hx with rfl | rfl <;> simp

/-- **C04 is violated** by every file cut off right after the letter of a GPS or status line: the letter is read as if it were a complete line with everything that stands in the line before
behind its first two characters. -/
theorem C04_violated_letter (buf0 pre body : List Nat) (hpre : EndsLine pre) (hb : ∀ b ∈ body, b ≠ 10) (h2 : 2 ≤ body.length) (hlen : body.length ≤ 254)
    (x : Nat) (hx : x = 71 ∨ x = 77) :
    parseGem buf0 (pre ++ (body ++ [10]) ++ [x]) = parseGem buf0 (pre ++ (body ++ [10]) ++ (x :: 44 :: body.drop 2 ++ [10])) := by
  have hends : EndsLine (pre ++ (body ++ [10])) := .inr (by rw [← List.append_assoc]; simp)
  have hch : fgetsChunks (pre ++ (body ++ [10])) = fgetsChunks pre ++ [body ++ [10]] := by
    rw [fgets_append hpre, fgets_line hb hlen]
    rfl
  have h10 : x ≠ 10 := by omega
  have c1 : fgetsChunks [x] = [[x]] := by simp [fgetsChunks, chunkGo, h10]
  have c2 : fgetsChunks (x :: 44 :: body.drop 2 ++ [10]) = [x :: 44 :: (body.drop 2 ++ [10])] := by
    rw [fgets_line (body := x :: 44 :: body.drop 2) ?_ (by simp; omega)]
    · rfl
    · intro b hb'
      rcases List.mem_cons.mp hb' with rfl | hb'
      · exact h10
      · rcases List.mem_cons.mp hb' with rfl | hb'
        · decide
        · exact hb b (List.mem_of_mem_drop hb')
  unfold parseGem
  rw [fgets_append hends, fgets_append hends, c1, c2, parseChunks_append, parseChunks_append, hch, parseChunks_cons, parseChunks_cons]
  obtain ⟨b, hbuf⟩ := runChunks_last (body ++ [10]) (fgetsChunks pre) .init buf0
  rw [hbuf, step_letter _ (loadBuf b (body ++ [10])) (loadBuf b (body ++ [10])) x (body.drop 2 ++ [10]) hx ?_]
  · rfl
  · rw [cstr_load_two _ _ (by simp; omega), cstr_load_two _ _ (by simp), List.drop_append_of_le_length h2]
    rfl

/-- For example, after the sample `D100,523` a lone `G` is read as `G,00,523`. -/
example : parseGem [] (bytes "D100,523\nG") = parseGem [] (bytes "D100,523\nG,00,523\n") := by
  have := C04_violated_letter [] [] (bytes "D100,523") (.inl rfl) (by decide +kernel) (by decide +kernel) (by decide +kernel) 71 (.inl rfl)
  have e1 : [] ++ (bytes "D100,523" ++ [10]) ++ [71] = bytes "D100,523\nG" := by decide +kernel
  have e2 : [] ++ (bytes "D100,523" ++ [10]) ++ (71 :: 44 :: (bytes "D100,523").drop 2 ++ [10]) = bytes "D100,523\nG,00,523\n" := by decide +kernel
  rwa [e1, e2] at this

end Gemlog
