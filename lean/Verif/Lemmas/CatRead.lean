import Verif.Lemmas.GemCat
import Verif.Props.ReadSingle
import Verif.Props.ReadBuffer
import Verif.Props.Transcode
import Verif.Props.Names

/-! # Helper facts: reading files made of lines -/

namespace Gemlog

theorem rawLine_isLine {l : RawLine} (h : l.Valid) : IsLine l.text := by
  cases l with
  | sample t step => exact lineD_isLine h
  | letters x y =>
    refine ⟨[x, y], rfl, ?_, by simp⟩
    intro b hb
    obtain ⟨h1, h2, h3⟩ := h
    simp at hb
    rcases hb with rfl | rfl <;> omega
  | other body => exact ⟨body, rfl, h.1, h.2.1⟩

/-- The rows of a list of lines (helper). -/
theorem parse_rawLines : ∀ (L : List RawLine), (∀ l ∈ L, l.Valid) → ∀ (st : PState) (buf : List Nat),
    storedSteps (parseChunks st buf (L.map RawLine.text)) = (L.filterMap RawLine.step).map (fun z : Int => (z : Rat)) ∧
    (parseChunks st buf (L.map RawLine.text)).length ≤ L.length ∧
    ((∃ l ∈ L, ∃ s, l.step = some s) → ∃ r ∈ parseChunks st buf (L.map RawLine.text), r.kind = .D) ∧
    ((∃ body, RawLine.other body ∈ L ∧ body.head? = some 77) →
      ∃ r ∈ parseChunks st buf (L.map RawLine.text), r.kind = .M) := by
  intro L
  induction L with
  | nil => intro _ st buf; simp [parseChunks, storedSteps]
  | cons l L ih =>
    intro h st buf
    rw [List.map_cons, parseChunks_cons]
    obtain ⟨i1, i2, i3, i4⟩ := ih (fun x hx => h x (by simp [hx])) (stepLine st (loadBuf buf l.text)).2 (loadBuf buf l.text)
    revert i1 i2 i3 i4
    generalize parseChunks (stepLine st (loadBuf buf l.text)).2 (loadBuf buf l.text) (L.map RawLine.text) = rows
    intro i1 i2 i3 i4
    have hl := h l (by simp)
    have hstep : ∀ r s, (stepLine st (loadBuf buf l.text)).1 = some r → r.kind = .D → r.vals.getD 0 0 = ((s : Int) : Rat) →
        l.step = some s →
        storedSteps ((stepLine st (loadBuf buf l.text)).1.toList ++ rows)
          = ((l :: L).filterMap RawLine.step).map (fun z : Int => (z : Rat)) ∧
        ((stepLine st (loadBuf buf l.text)).1.toList ++ rows).length ≤ (l :: L).length ∧
        ((∃ x ∈ l :: L, ∃ s, x.step = some s) →
          ∃ r ∈ (stepLine st (loadBuf buf l.text)).1.toList ++ rows, r.kind = .D) ∧
        ((∃ body, RawLine.other body ∈ l :: L ∧ body.head? = some 77) →
          ∃ r ∈ (stepLine st (loadBuf buf l.text)).1.toList ++ rows, r.kind = .M) := by
      intro r s e1 e2 e3 e4
      rw [e1]
      refine ⟨?_, ?_, fun _ => ⟨r, by simp, e2⟩, ?_⟩
      · unfold storedSteps at i1 ⊢
        simp only [Option.toList_some, List.singleton_append]
        rw [List.filter_cons_of_pos (by simp [e2]), List.map_cons, i1, List.filterMap_cons, e4, List.map_cons, e3]
      · simp; omega
      · rintro ⟨body, hb, hb2⟩
        rcases List.mem_cons.mp hb with hb | hb
        · rw [← hb] at e4; simp [RawLine.step] at e4
        · obtain ⟨r', hr', hk⟩ := i4 ⟨body, hb, hb2⟩
          exact ⟨r', by simp [hr'], hk⟩
    cases l with
    | sample t step =>
      simp only [RawLine.text] at hstep ⊢
      exact hstep _ step (by rw [step_lineD]) rfl (by simp [fillRow]) rfl
    | letters x y =>
      simp only [RawLine.text] at hstep ⊢
      exact hstep _ ((y : Int) - 109) (by rw [step_compact _ _ _ _ hl.1 hl.2]) rfl (by simp [fillRow]) rfl
    | other body =>
      obtain ⟨h1, h2, h3⟩ := hl
      have hk := stepLine_kind st buf (body ++ [10]) (by simp)
      simp only [RawLine.text]
      have hnd : lineKind (body ++ [10]) ≠ some .D := by
        cases body with
        | nil => simp [lineKind]
        | cons b body =>
          have := h3 b (by simp)
          simp only [List.cons_append, lineKind]
          rw [if_neg (by tauto)]
          split_ifs <;> simp
      cases hs : (stepLine st (loadBuf buf (body ++ [10]))).1 with
      | none =>
        simp only [Option.toList_none, List.nil_append]
        refine ⟨by rw [i1, List.filterMap_cons]; rfl, by simp; omega, ?_, ?_⟩
        · rintro ⟨x, hx, s, hxs⟩
          rcases List.mem_cons.mp hx with rfl | hx
          · simp [RawLine.step] at hxs
          · exact i3 ⟨x, hx, s, hxs⟩
        · rintro ⟨b2, hb, hb2⟩
          rcases List.mem_cons.mp hb with hb | hb
          · simp only [RawLine.other.injEq] at hb
            subst hb
            rw [hs] at hk
            cases b2 with
            | nil => simp at hb2
            | cons b b2 =>
              simp at hb2
              subst hb2
              simp [lineKind] at hk
          · exact i4 ⟨b2, hb, hb2⟩
      | some r =>
        rw [hs] at hk
        simp only [Option.map_some] at hk
        simp only [Option.toList_some, List.singleton_append]
        have hrk : r.kind ≠ .D := by
          intro h5
          rw [h5] at hk
          exact hnd hk.symm
        refine ⟨?_, by simp; omega, ?_, ?_⟩
        · unfold storedSteps at i1 ⊢
          rw [List.filter_cons_of_neg (by simpa using hrk)]
          rw [i1, List.filterMap_cons]; rfl
        · rintro ⟨x, hx, s, hxs⟩
          rcases List.mem_cons.mp hx with rfl | hx
          · simp [RawLine.step] at hxs
          · obtain ⟨r', hr', h6⟩ := i3 ⟨x, hx, s, hxs⟩
            exact ⟨r', by simp [hr'], h6⟩
        · rintro ⟨b2, hb, hb2⟩
          rcases List.mem_cons.mp hb with hb | hb
          · simp only [RawLine.other.injEq] at hb
            subst hb
            refine ⟨r, by simp, ?_⟩
            cases b2 with
            | nil => simp at hb2
            | cons b b2 =>
              simp at hb2
              subst hb2
              simp [lineKind] at hk
              exact hk
          · obtain ⟨r', hr', h6⟩ := i4 ⟨b2, hb, hb2⟩
            exact ⟨r', by simp [hr'], h6⟩

theorem runningSums_range : ∀ (l : List Int) (acc : Int),
    (List.range l.length).map (fun i => some ((acc : Rat) + ((l.map (fun z : Int => (z : Rat))).take (i + 1)).sum))
      = (runningSums acc l).map (fun z : Int => some (z : Rat)) := by
  intro l
  induction l with
  | nil => intro acc; rfl
  | cons x l ih =>
    intro acc
    rw [List.length_cons, List.range_succ_eq_map, List.map_cons, List.map_map, runningSums, List.map_cons,
      List.map_cons (f := fun z : Int => some (z : Rat)), ← ih (acc + x)]
    congr 1
    · simp
    · apply List.map_congr_left
      intro i _
      simp [add_assoc]

theorem diff_versions {version : String} (hv : version ∈ ["0.85C", "0.9", "1.10"]) :
    (version = "0.8" ∨ version = "0.85" ∨ version = "0.85C" ∨ version = "0.9" ∨ version = "1.10") ∧
    version ∈ ["1.10", "0.9", "0.85C"] ∧ version ∈ ["1.10", "0.91", "0.9", "0.85C"] ∧
    version ∈ ["0.85C", "0.9", "0.91", "1.10"] ∧ timeCorrection version = some (893 / 100) := by
  simp only [List.mem_cons, List.not_mem_nil, or_false] at hv
  rcases hv with rfl | rfl | rfl <;> decide +kernel

/-- Reading a file made of lines in a differenced format (helper). -/
theorem read_rawLines (env : CatEnv) (L : List RawLine) (hL : ∀ l ∈ L, l.Valid) (hD : ∃ l ∈ L, ∃ s, l.step = some s)
    (hM : ∃ body, RawLine.other body ∈ L ∧ body.head? = some 77) (hlen : L.length ≤ 65520000) (version : String)
    (hv : version ∈ ["0.85C", "0.9", "1.10"]) :
    ∃ d, env.read (L.map RawLine.text).flatten version = .ok d ∧
      d.data.map Prod.snd = (runningSums 0 (L.filterMap RawLine.step)).map (fun z : Int => some (z : Rat)) := by
  have hch : fgetsChunks (L.map RawLine.text).flatten = L.map RawLine.text := by
    apply fgets_lines
    intro l hl
    obtain ⟨x, hx, rfl⟩ := List.mem_map.mp hl
    exact rawLine_isLine (hL x hx)
  have hparse : ∀ buf, parseGem buf (L.map RawLine.text).flatten = parseChunks .init buf (L.map RawLine.text) := by
    intro buf; unfold parseGem; rw [hch]
  have hrows : ∃ buf, readWithCython env.buf0 env.buf1 false (some (L.map RawLine.text).flatten)
      = .ok (parseGem buf (L.map RawLine.text).flatten) := by
    have hc := C06_complete_or_error env.buf0 env.buf1 false (L.map RawLine.text).flatten
    have hnum : (parseGem env.buf0 (L.map RawLine.text).flatten).length ≤ 65520000 := by
      rw [hparse]
      have := (parse_rawLines L hL .init env.buf0).2.1
      omega
    have hout : ∀ buf, rowsOutcome false (parseGem buf (L.map RawLine.text).flatten)
        = .ok (parseGem buf (L.map RawLine.text).flatten) := by
      intro buf
      obtain ⟨r, hr, _⟩ := (parse_rawLines L hL .init buf).2.2.1 hD
      rw [← hparse buf] at hr
      cases hp : parseGem buf (L.map RawLine.text).flatten with
      | nil => rw [hp] at hr; simp at hr
      | cons a rows => simp [rowsOutcome]
    by_cases h1 : (parseGem env.buf0 (L.map RawLine.text).flatten).length ≤ 1560000
    · exact ⟨env.buf0, by rw [hc.1 h1, hout]⟩
    · exact ⟨env.buf1, by rw [hc.2.1 (by omega) hnum, hout]⟩
  obtain ⟨buf, hbuf⟩ := hrows
  obtain ⟨p1, p2, p3, p4⟩ := parse_rawLines L hL .init buf
  rw [← hparse buf] at p1 p2 p3 p4
  have hclean : CleanTable (cythonTable (parseGem buf (L.map RawLine.text).flatten)) := by
    obtain ⟨r, hr, hk⟩ := p3 hD
    obtain ⟨r2, hr2, hk2⟩ := p4 hM
    refine ⟨⟨_, List.mem_map.mpr ⟨r, hr, rfl⟩, hk⟩, ⟨_, List.mem_map.mpr ⟨r2, hr2, rfl⟩, hk2⟩, ?_⟩
    intro x hx c hc
    obtain ⟨r, _, rfl⟩ := List.mem_map.mp hx
    rcases List.mem_cons.mp hc with rfl | hc
    · simp
    · obtain ⟨y, _, rfl⟩ := List.mem_map.mp hc
      simp
  obtain ⟨hv5, hv3, hv4, _, htc⟩ := diff_versions hv
  obtain ⟨out, ho, _⟩ := processData_clean env.emptyRaises _ hclean 0 version hv5 false (by simp)
  have h10 := C10_running_sum_file env.emptyRaises buf (L.map RawLine.text).flatten 0 version
    hv3 false out ho
  refine ⟨out.addDataTime (893 / 100), ?_, ?_⟩
  · unfold CatEnv.read readSingle
    rw [if_pos hv4]
    simp only [hbuf, Except.map, tryReaders, Except.bind, ho, Bool.false_eq_true, and_false, if_false, htc]
  · unfold FileData.addDataTime
    simp only [List.map_map]
    rw [show (Prod.snd ∘ fun p : Rat × Option Rat => (p.1 + 893 / 100, p.2)) = Prod.snd from rfl, h10, p1]
    have := runningSums_range (L.filterMap RawLine.step) 0
    rw [← this]
    simp

end Gemlog
