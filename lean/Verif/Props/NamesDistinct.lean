import Verif.Props.Names
import Verif.Lemmas.Union

/-!
# C36: when no output file overwrites another

The segments of a conversion are separated by missing samples or by the ends of windows. So if the file length is a whole number of
seconds and no gap is shorter than a second, all output files have different names.
-/

namespace Gemlog

/-! ## Streams whose traces are apart -/

/-- The traces are not empty, and at least one sample is missing between each and the later ones. -/
def Spaced (p : List Trace) : Prop := (∀ tr ∈ p, tr.data ≠ []) ∧ p.Pairwise fun a b => a.stop + 1 < b.start

theorem start_mem_stamps {tr : Trace} (h : tr.data ≠ []) : ∃ x, (tr.start, x) ∈ stamps tr.start tr.data := by
  cases hd : tr.data with
  | nil => exact absurd hd h
  | cons x l => exact ⟨x, by simp [stamps]⟩

theorem stop_mem_stamps {tr : Trace} (h : tr.data ≠ []) : ∃ x, (tr.stop, x) ∈ stamps tr.start tr.data := by
  obtain ⟨x, r, e⟩ := last_stamps h
  exact ⟨x, by rw [e]; simp⟩

theorem start_le_stop {tr : Trace} (h : tr.data ≠ []) : tr.start ≤ tr.stop := by
  obtain ⟨x, hx⟩ := start_mem_stamps h
  exact sample_le_stop hx

/-- Cutting traces keeps them apart. -/
theorem spaced_cut {f : Trace → Trace} {c : Int × Int → Bool}
    (hf : ∀ tr, stamps (f tr).start (f tr).data = (stamps tr.start tr.data).filter c) {p : List Trace} (h : Spaced p) :
    Spaced ((p.map f).filter fun tr => tr.data.length != 0) := by
  refine ⟨fun tr htr => by simpa using (List.mem_filter.mp htr).2, ?_⟩
  have hsub : ∀ {tr : Trace} {q : Int × Int}, q ∈ stamps (f tr).start (f tr).data → tr.start ≤ q.1 ∧ q.1 ≤ tr.stop := by
    intro tr q hq
    rw [hf] at hq
    have h1 := List.mem_of_mem_filter hq
    exact ⟨(mem_stamps_range h1).1, sample_le_stop h1⟩
  rw [List.pairwise_filter, List.pairwise_map]
  refine h.2.imp ?_
  intro a b hab ha hb
  obtain ⟨x, hx⟩ := stop_mem_stamps (tr := f a) (by simpa using ha)
  obtain ⟨y, hy⟩ := start_mem_stamps (tr := f b) (by simpa using hb)
  have h1 := (hsub hx).2
  have h2 := (hsub hy).1
  omega

theorem spaced_trim {a b : Int} {p p' : List Trace} (h : Spaced p) (ht : trimStream a b p = .ok p') : Spaced p' := by
  cases p with
  | nil =>
    unfold trimStream at ht
    simp only [Except.ok.injEq] at ht
    rw [← ht]; exact h
  | cons tr p =>
    unfold trimStream at ht
    simp only at ht
    split_ifs at ht
    simp only [Except.ok.injEq] at ht
    rw [← ht]
    exact spaced_cut (trim_stamps _ _) h

theorem spaced_slice (s e : Int) {p : List Trace} (h : Spaced p) : Spaced (sliceStream s e p) := spaced_cut (slice_stamps s e) h

/-- The runs of unmasked samples of a trace are apart. -/
theorem splitData_spaced (l : List (Option Int)) : ∀ (k : Int) (cur : List Int), Spaced (splitData k cur l) := by
  induction l with
  | nil =>
    intro k cur
    unfold splitData
    split_ifs with hc
    · exact ⟨by simp, List.Pairwise.nil⟩
    · exact ⟨by simpa using hc, List.pairwise_singleton _ _⟩
  | cons a l ih =>
    intro k cur
    cases a with
    | some x => unfold splitData; exact ih _ _
    | none =>
      unfold splitData
      split_ifs with hc
      · exact ih _ _
      · refine ⟨?_, List.pairwise_cons.mpr ⟨?_, (ih _ _).2⟩⟩
        · intro tr htr
          rcases List.mem_cons.mp htr with rfl | h
          · simpa using hc
          · exact (ih _ _).1 tr h
        · intro b hb
          have h1 := (splitData_above (k + 1) (k + 1) [] l (by simp) b hb).2
          have h2 : (⟨k - cur.length, cur.reverse⟩ : Trace).stop = k - 1 := by
            rw [stop_of_ne (by simpa using hc)]
            simp only [List.length_reverse]
            omega
          omega

theorem mergeGaps_spaced (st : List Trace) : Spaced (mergeGaps st) := by
  unfold mergeGaps
  cases st.map Trace.toM with
  | nil => exact ⟨by simp, List.Pairwise.nil⟩
  | cons a rest =>
    simp only
    cases mergeTraces false (rest.foldl mergeStep [a]) with
    | none => exact ⟨by simp, List.Pairwise.nil⟩
    | some m => exact splitData_spaced _ _ _

/-! ## The segments of a conversion -/

/-- Between the end of `a` and the start of `b` a sample is missing, or a window of length `L` ends. -/
def Parted (L : Int) (a b : Trace) : Prop :=
  a.stop + 1 < b.start ∨ ∃ k : Int, 10000 * a.stop < k * L ∧ k * L ≤ 10000 * b.start

/-- Every run keeps the segments apart. `hread`: only needed if `t1` is given, when the first block is not merged. -/
theorem written_parted (j : Job) {l : Int} (hl : 0 < l) (hL : j.L = 10000 * l) (t1 : Option Int)
    (hread : t1 ≠ none → ∀ b d, j.read b = .ok d → Spaced d) (n : Nat) :
    (∀ tr ∈ (convertLoops j t1 n).written, tr.data ≠ []) ∧ (convertLoops j t1 n).written.Pairwise (Parted j.L) := by
  have hk : Keeps j (fun h out => ((∀ tr ∈ out, tr.data ≠ []) ∧ out.Pairwise (Parted j.L)) ∧
      ∀ tr ∈ out, ∃ k : Int, 10000 * tr.stop < k * j.L ∧ k * j.L ≤ h) Spaced
      (fun out => (∀ tr ∈ out, tr.data ≠ []) ∧ out.Pairwise (Parted j.L)) := by
    refine ⟨?_, fun h o g => g.1, fun a b p p' hA ht => spaced_trim hA ht, fun b d p _ _ => mergeGaps_spaced _⟩
    rintro s ⟨⟨g1, g2⟩, g3⟩ hA
    have hwin : writeWindow j.L s.p s.h = (sliceStream s.h (windowEnd j.L s.h - 1) s.p, windowEnd j.L s.h) := rfl
    obtain ⟨e, he⟩ := windowEnd_grid l s.h
    rw [← hL] at he
    have hgt : s.h < windowEnd j.L s.h := truncTime_gt (by omega)
    have hk : windowEnd j.L s.h = (Int.tdiv s.h j.L + 1) * j.L := by unfold windowEnd truncTime; ring
    have hsl := spaced_slice s.h (windowEnd j.L s.h - 1) hA
    have hin : ∀ tr ∈ sliceStream s.h (windowEnd j.L s.h - 1) s.p, s.h ≤ 10000 * tr.start ∧ 10000 * tr.stop < windowEnd j.L s.h := by
      intro tr htr
      have hne := hsl.1 tr htr
      have key : ∀ q ∈ stamps tr.start tr.data, s.h ≤ 10000 * q.1 ∧ 10000 * q.1 ≤ windowEnd j.L s.h - 1 := by
        intro q hq
        have hm : q ∈ samples (sliceStream s.h (windowEnd j.L s.h - 1) s.p) := List.mem_flatMap.mpr ⟨tr, htr, hq⟩
        rw [samples_sliceStream, List.mem_filter] at hm
        have h2 := hm.2
        simpa only [Bool.and_eq_true, decide_eq_true_eq] using h2
      obtain ⟨x, hx⟩ := start_mem_stamps hne
      obtain ⟨y, hy⟩ := stop_mem_stamps hne
      have h1 := (key _ hx).1
      have h2 := (key _ hy).2
      exact ⟨h1, by omega⟩
    have hout : (∀ tr ∈ s.out ++ sliceStream s.h (windowEnd j.L s.h - 1) s.p, tr.data ≠ []) ∧
        (s.out ++ sliceStream s.h (windowEnd j.L s.h - 1) s.p).Pairwise (Parted j.L) := by
      refine ⟨?_, List.pairwise_append.mpr ⟨g2, hsl.2.imp fun h => Or.inl h, ?_⟩⟩
      · intro tr htr
        rcases List.mem_append.mp htr with h | h
        · exact g1 tr h
        · exact hsl.1 tr h
      · intro a ha b hb
        obtain ⟨k, k1, k2⟩ := g3 a ha
        exact Or.inr ⟨k, k1, le_trans k2 (hin b hb).1⟩
    have hend : ∀ h', windowEnd j.L s.h ≤ h' → ∀ tr ∈ s.out ++ sliceStream s.h (windowEnd j.L s.h - 1) s.p,
        ∃ k : Int, 10000 * tr.stop < k * j.L ∧ k * j.L ≤ h' := by
      intro h' hh' tr htr
      rcases List.mem_append.mp htr with h | h
      · obtain ⟨k, k1, k2⟩ := g3 tr h
        exact ⟨k, k1, by omega⟩
      · exact ⟨_, by rw [← hk]; exact (hin tr h).2, by rw [← hk]; exact hh'⟩
    unfold writeBody
    rw [hwin]
    simp only
    cases ht : trimStream (windowEnd j.L s.h) j.t2 s.p with
    | error x => exact hout
    | ok p =>
      have hA' := spaced_trim hA ht
      cases p with
      | nil => exact ⟨⟨hout, hend _ (le_refl _)⟩, hA'⟩
      | cons tr p =>
        refine ⟨⟨hout, hend _ ?_⟩, hA'⟩
        rw [he] at ht ⊢
        obtain ⟨x, hx⟩ := mem_samples_start (List.mem_cons_self (a := tr) (l := p)) (hA'.1 tr (by simp))
        have := trim_grid_lower ht _ hx
        simp only at this ⊢
        omega
  refine written_of_sat (Q := fun out => (∀ tr ∈ out, tr.data ≠ []) ∧ out.Pairwise (Parted j.L))
    (convertLoops_sat hk (R := fun d => t1 ≠ none → Spaced d) (fun b d hr ht => hread ht b d hr) ⟨by simp, List.Pairwise.nil⟩ t1 ?_ ?_ n)
    ⟨by simp, List.Pairwise.nil⟩
  · exact fun d hd => ⟨hd, mergeGaps_spaced d⟩
  · intro p t _ _
    exact ⟨⟨by simp, List.Pairwise.nil⟩, by simp⟩

/-- **C36, where segments are cut.** For every conversion (without a starting time, or if the reader returns traces that are apart), with every
file length on the sample grid, whatever is read: no output segment is empty, and between any two there is either a missing sample or the
end of a window. Missing: different names, see below. -/
theorem C36_cut_partial (j : Job) (l : Int) (hl : 0 < l) (hL : j.L = 10000 * l) (t1 : Option Int)
    (hread : t1 ≠ none → ∀ b d, j.read b = .ok d → Spaced d) (n : Nat) :
    (∀ tr ∈ (convertLoops j t1 n).written, tr.data ≠ []) ∧
      (convertLoops j t1 n).written.Pairwise fun a b =>
        a.stop + 1 < b.start ∨ ∃ k : Int, 10000 * a.stop < k * j.L ∧ k * j.L ≤ 10000 * b.start :=
  written_parted j hl hL t1 hread n

/-! ## Names -/

/-- Gaps in the samples, if any, are at least a second: neighbours are 10 ms or at least one second apart. -/
def NoShortGap (s : List (Int × Int)) : Prop := s.IsChain fun x y => y.1 = x.1 + 1 ∨ x.1 + 100 ≤ y.1

theorem starts_increase {L m : Int} (hL : L = 1000000 * m) : ∀ {out : List Trace}, (∀ tr ∈ out, tr.data ≠ []) →
    out.Pairwise (Parted L) → NoShortGap (samples out) → out.IsChain fun a b => a.start / 100 < b.start / 100
  | [], _, _, _ => List.IsChain.nil
  | [a], _, _, _ => List.isChain_singleton _
  | a :: b :: l, hne, hp, hs => by
    have hp' := List.pairwise_cons.mp hp
    rw [samples_cons] at hs
    have hs' := List.isChain_append.mp hs
    refine List.isChain_cons_cons.mpr ⟨?_, starts_increase hL (fun tr h => hne tr (List.mem_cons_of_mem _ h)) hp'.2 hs'.2.1⟩
    obtain ⟨x, r, ex⟩ := last_stamps (hne a (by simp))
    obtain ⟨y, r', ey⟩ := head_samples (p := l) (hne b (by simp))
    have hadj := hs'.2.2 (a.stop, x) (by rw [ex]; simp) (b.start, y) (by rw [ey]; simp)
    have hab := start_le_stop (hne a (by simp))
    simp only at hadj
    rcases hp'.1 b (by simp) with h | ⟨k, k1, k2⟩
    · omega
    · rw [hL] at k1 k2
      have e : k * (1000000 * m) = 1000000 * (k * m) := by ring
      rw [e] at k1 k2
      omega

/-- **C36, when it holds.** For every conversion from the beginning (no starting time) whose file length is a whole number of seconds, whatever is read: if
no gap in the written samples is shorter than a second, all segments have different names, and after the conversion, whatever was in the
output folder before, each segment is in the file with its name. Missing: shorter gaps (`C36_violated`), other file lengths (`C36_violated_length`). -/
theorem C36_distinct_partial (j : Job) (m : Int) (hm : 0 < m) (hL : j.L = 1000000 * m) (n : Nat) (id fmt : List Nat)
    (hgap : NoShortGap (samples (convertLoops j none n).written))
    (hdate : ∀ tr ∈ (convertLoops j none n).written, Datable tr.start) :
    ((convertLoops j none n).written.map fun tr => convertedName id fmt tr.start).Nodup ∧
      ∀ (dir : Dir Trace), ∀ tr ∈ (convertLoops j none n).written,
        dir.writeAll (segmentWrites id fmt (convertLoops j none n).written) (convertedName id fmt tr.start) = some tr := by
  obtain ⟨hne, hp⟩ := written_parted j (l := 100 * m) (by omega) (by omega) none (by simp) n
  generalize (convertLoops j none n).written = out at *
  have hc := starts_increase hL hne hp hgap
  have hpw : out.Pairwise fun a b => a.start / 100 < b.start / 100 := by
    have : Trans (fun a b : Trace => a.start / 100 < b.start / 100) (fun a b : Trace => a.start / 100 < b.start / 100)
        (fun a b : Trace => a.start / 100 < b.start / 100) := ⟨fun h1 h2 => lt_trans h1 h2⟩
    exact List.isChain_iff_pairwise.mp hc
  have hnd : (out.map fun tr => convertedName id fmt tr.start).Nodup := by
    rw [List.Nodup, List.pairwise_map]
    refine List.Pairwise.imp_of_mem ?_ hpw
    intro a b ha hb hab e
    have := convertedName_injective id fmt (hdate a ha) (hdate b hb) e
    omega
  refine ⟨hnd, ?_⟩
  intro dir tr htr
  rw [writeAll_get]
  have hf : (segmentWrites id fmt out).filter (fun w => decide (w.1 = convertedName id fmt tr.start)) =
      [(convertedName id fmt tr.start, tr)] := by
    unfold segmentWrites
    rw [List.filter_map]
    have : out.filter ((fun w : List Nat × Trace => decide (w.1 = convertedName id fmt tr.start)) ∘
        fun tr : Trace => (convertedName id fmt tr.start, tr)) = [tr] := by
      clear hc hpw hgap hp hne
      induction out with
      | nil => simp at htr
      | cons a l ih =>
        rw [List.map_cons, List.nodup_cons] at hnd
        rcases List.mem_cons.mp htr with rfl | h
        · rw [List.filter_cons_of_pos (by simp)]
          rw [List.filter_eq_nil_iff.mpr]
          intro b hb h2
          simp only [Function.comp, decide_eq_true_eq] at h2
          exact hnd.1 (List.mem_map.mpr ⟨b, hb, h2⟩)
        · rw [List.filter_cons_of_neg, ih (fun x hx => hdate x (List.mem_cons_of_mem _ hx)) hnd.2 h]
          simp only [Function.comp, decide_eq_true_eq]
          intro h2
          exact hnd.1 (List.mem_map.mpr ⟨tr, h, h2.symm⟩)
    rw [this]
    rfl
  rw [hf]
  rfl

theorem stamps_steps (k : Int) (l : List Int) : (stamps k l).IsChain fun a b => b.1 = a.1 + 1 := by
  induction l generalizing k with
  | nil => exact List.IsChain.nil
  | cons x l ih =>
    cases l with
    | nil => exact List.isChain_singleton _
    | cons y l => exact List.isChain_cons_cons.mpr ⟨rfl, ih (k + 1)⟩

theorem traces_in_order {out : List Trace} (h : Increasing (samples out)) :
    out.Pairwise fun A B => ∀ p ∈ stamps A.start A.data, ∀ q ∈ stamps B.start B.data, p.1 < q.1 := by
  unfold Increasing samples at h
  exact (List.pairwise_flatMap.mp h).2

/-- **C36 violated: file lengths.** The file length is not a whole number of seconds, and window `K` begins within a second. If the samples of that second begin
before the window (a gap or the beginning of the conversion is in the same second, or another window begins in it), the sample with which they begin is in
no file after the conversion: the part of the record before the window's beginning is replaced by the part after it. -/
theorem C36_violated_length (j : Job) (l K : Int) (hl : 0 < l) (hL : j.L = 10000 * l) (t1 : Option Int) (ht1 : ∀ t, t1 = some t → 0 ≤ t)
    (hread : ∀ b d, j.read b = .ok d → ∀ tr ∈ d, tr.data ≠ [] ∧ 0 ≤ tr.start) (n : Nat) (id fmt : List Nat)
    (hinc : Increasing (samples (convertLoops j t1 n).written)) (a x y : Int)
    (_ha : (a, x) ∈ samples (convertLoops j t1 n).written) (hb : (K * l, y) ∈ samples (convertLoops j t1 n).written)
    (hak : a < K * l) (hsec : a / 100 = K * l / 100)
    (hfirst : (∀ q ∈ samples (convertLoops j t1 n).written, q.1 ≠ a - 1) ∨ ∃ m, a = m * l) :
    ∀ name tr, Dir.writeAll (fun _ => none) (segmentWrites id fmt (convertLoops j t1 n).written) name = some tr →
      ∀ v, (a, v) ∉ stamps tr.start tr.data := by
  have hwin := C30_one_window j (by omega) t1 ht1 hread n
  generalize (convertLoops j t1 n).written = out at *
  have hord := traces_in_order hinc
  have hstart : ∀ (c v : Int) (tr : Trace), tr ∈ out → (c, v) ∈ stamps tr.start tr.data →
      ((∀ q ∈ samples out, q.1 ≠ c - 1) ∨ ∃ m, c = m * l) → tr.start = c := by
    intro c v tr htr hc hf
    obtain ⟨h1, h2⟩ := (mem_stamps_iff ..).mp hc
    by_contra hne
    have hlt : tr.start < c := lt_of_le_of_ne h1 hne
    have hlen := (List.getElem?_eq_some_iff.mp h2).1
    rcases hf with hf | ⟨m, hm⟩
    · refine hf (c - 1, tr.data[(c - 1 - tr.start).toNat]'(by omega)) ?_ rfl
      refine List.mem_flatMap.mpr ⟨tr, htr, (mem_stamps_iff ..).mpr ⟨by omega, ?_⟩⟩
      exact List.getElem?_eq_getElem _
    · obtain ⟨k, hk⟩ := hwin tr htr
      have e1 := (hk _ hc).2
      have h0 : 0 < tr.data.length := by omega
      have e2 := (hk (tr.start, tr.data[0]) ((mem_stamps_iff ..).mpr ⟨le_refl _, by simp [List.getElem?_eq_getElem h0]⟩)).1
      simp only [hL, hm] at e1 e2
      have e3 : m < k + 1 := by
        have : m * l < (k + 1) * l := by linarith
        exact lt_of_mul_lt_mul_right this hl.le
      have e4 : k < m := by
        have : k * l < m * l := by rw [← hm]; linarith
        exact lt_of_mul_lt_mul_right this hl.le
      omega
  intro name tr hdir v hv
  rw [writeAll_get] at hdir
  split at hdir
  · rename_i w hw
    cases hdir
    obtain ⟨r, hr⟩ := List.getLast?_eq_some_iff.mp hw
    have hwm : w ∈ (segmentWrites id fmt out).filter fun w => decide (w.1 = name) := List.mem_of_getLast? hw
    obtain ⟨hw1, hw2⟩ := List.mem_filter.mp hwm
    obtain ⟨tr, htr, rfl⟩ := List.mem_map.mp hw1
    simp only [decide_eq_true_eq] at hw2 hv
    have hs := hstart a v tr htr hv hfirst
    obtain ⟨B, hB, hBy⟩ := List.mem_flatMap.mp hb
    have hsB := hstart (K * l) y B hB hBy (Or.inr ⟨K, rfl⟩)
    have hname : convertedName id fmt B.start = name := by
      rw [← hw2, hs, hsB]
      unfold convertedName
      rw [hsec]
    have hBf : (convertedName id fmt B.start, B) ∈ (segmentWrites id fmt out).filter fun w => decide (w.1 = name) :=
      List.mem_filter.mpr ⟨List.mem_map.mpr ⟨B, hB, rfl⟩, by simp [hname]⟩
    have hpw : ((segmentWrites id fmt out).filter fun w => decide (w.1 = name)).Pairwise
        fun w w' => ∀ p ∈ stamps w.2.start w.2.data, ∀ q ∈ stamps w'.2.start w'.2.data, p.1 < q.1 := by
      refine List.Pairwise.filter _ ?_
      unfold segmentWrites
      exact List.pairwise_map.mpr hord
    rw [hr] at hBf hpw
    rcases List.mem_append.mp hBf with h | h
    · have := (List.pairwise_append.mp hpw).2.2 _ h _ (List.mem_singleton_self _) _ hBy _ hv
      simp only at this
      omega
    · rw [List.mem_singleton] at h
      have : B = tr := (Prod.mk.injEq .. ▸ h).2
      rw [this, hs] at hsB
      omega
  · cases hdir

/-- **C36, file lengths.** Exactly with a file length of whole seconds, every conversion without gaps shorter than a second has different names for all its segments. -/
theorem C36_lengths (l : Int) (hl : 0 < l) (hd : Datable l) (id fmt : List Nat) :
    100 ∣ l ↔ ∀ (j : Job) (n : Nat), j.L = 10000 * l → NoShortGap (samples (convertLoops j none n).written) →
      (∀ tr ∈ (convertLoops j none n).written, Datable tr.start) →
      ((convertLoops j none n).written.map fun tr => convertedName id fmt tr.start).Nodup := by
  constructor
  · rintro ⟨m, rfl⟩ j n hL hgap hdate
    exact (C36_distinct_partial j m (by omega) (by omega) n id fmt hgap hdate).1
  · intro h
    by_contra hndvd
    set s : Int := 100 * (l / 100) with hs
    have hsl : s < l := by omega
    let d : List Trace := [⟨s, List.replicate (l - s + 1).toNat 7⟩]
    let j : Job := ⟨[0], 1, 10000 * l, 10000 * l + 10000 * l + 86400000000 + 1000000, fun _ => .ok d⟩
    have hblocks : j.blocks = [[0]] := by
      have : ∀ (L t2 : Int) (read : List Int → Except Exc (List Trace)), Job.blocks ⟨[0], 1, L, t2, read⟩ =
          Job.blocks ⟨[0], 1, 0, 0, fun _ => .ok []⟩ := fun _ _ _ => rfl
      refine (this _ _ _).trans ?_
      decide +kernel
    have hstream : j.streamOf [0] = d := by rfl
    have hskip : j.OnlySkips := by
      intro b _ x hx
      cases hx
    have hsamples : samples (d ++ []) = stamps s (List.replicate (l - s + 1).toNat 7) := by simp [d, samples]
    have hmem : ∀ q : Int × Int, q ∈ stamps s (List.replicate (l - s + 1).toNat 7) → s ≤ q.1 ∧ q.1 ≤ l := by
      rintro ⟨t, v⟩ hq
      obtain ⟨q1, q2⟩ := (mem_stamps_iff ..).mp hq
      have := (List.getElem?_eq_some_iff.mp q2).1
      rw [List.length_replicate] at this
      dsimp only
      omega
    have hin : ∀ t : Int, s ≤ t → t ≤ l → (t, 7) ∈ stamps s (List.replicate (l - s + 1).toNat 7) := by
      intro t h1 h2
      refine (mem_stamps_iff ..).mpr ⟨h1, ?_⟩
      rw [List.getElem?_replicate, if_pos (by omega)]
    have hinc0 : Increasing (stamps s (List.replicate (l - s + 1).toNat 7)) := stamps_increasing _ _
    obtain ⟨st, ⟨-, N, hN⟩, hst, -⟩ := C29_nothing_lost j l (by norm_num [j]) hl rfl hskip d []
      ⟨⟨[], [0], [], hblocks, rfl, hstream, rfl⟩, by simp [d]⟩
      ⟨by simp [d]; omega, by rw [hsamples]; exact hinc0⟩
      (by rw [hsamples]; intro q hq; have := (hmem q hq).1; omega)
      (by
        rw [hsamples]; intro q hq
        have := (hmem q hq).2
        have hday : j.day = 86400000000 := by
          show ⌈(86400000000 * 1 : Rat)⌉ = 86400000000
          norm_num
        rw [hday]
        show 10000 * q.1 + 10000 * l + 86400000000 + 1000000 ≤ 10000 * l + 10000 * l + 86400000000 + 1000000
        omega)
      s 7 (10000 * s)
      (by
        have : samples d = samples (d ++ []) := by simp
        rw [this, hsamples]
        obtain ⟨m, hm⟩ : ∃ m, (l - s + 1).toNat = m + 1 := ⟨(l - s).toNat, by omega⟩
        rw [hm]; rfl)
      (by omega) (le_refl _) (by omega) ⟨(s, 7), by rw [hsamples]; exact hin s (le_refl _) hsl.le, le_refl _⟩
    rw [hsamples, fillIn_stamps, from_all (fun q hq => by have := (hmem q hq).1; omega)] at hst
    have hw : (convertLoops j none N).written = st.w.out := by rw [hN N (le_refl _)]; rfl
    have hsame : ∀ tr ∈ (convertLoops j none N).written, tr.data ≠ [] → tr.start / 100 = l / 100 := by
      intro tr htr hne
      obtain ⟨x, hx⟩ := start_mem_stamps hne
      have := hmem (tr.start, x) (by rw [← hst, ← hw]; exact List.mem_flatMap.mpr ⟨tr, htr, hx⟩)
      simp only at this
      omega
    have hread : ∀ b e, j.read b = .ok e → ∀ tr ∈ e, tr.data ≠ [] ∧ 0 ≤ tr.start := by
      intro b e he tr htr
      cases he
      rw [List.mem_singleton.mp htr]
      refine ⟨?_, by show 0 ≤ s; omega⟩
      simp; omega
    have hne := (C36_cut_partial j l hl rfl none (by simp) N).1
    have hnodup := h j N rfl (by rw [hw, hst]; unfold NoShortGap; exact (stamps_steps _ _).imp fun _ _ h => Or.inl h)
      (fun tr htr => by unfold Datable; rw [hsame tr htr (hne tr htr)]; exact hd)
    have hwin := C30_one_window j (by show 0 < 10000 * l; omega) none (by simp) hread N
    rw [← hw] at hst
    generalize (convertLoops j none N).written = out at *
    have h1 : (s, (7 : Int)) ∈ samples out := by rw [hst]; exact hin s (le_refl _) hsl.le
    have h2 : (l, (7 : Int)) ∈ samples out := by rw [hst]; exact hin l hsl.le (le_refl _)
    obtain ⟨A, hA, hA'⟩ := List.mem_flatMap.mp h1
    obtain ⟨B, hB, hB'⟩ := List.mem_flatMap.mp h2
    have hAB : A ≠ B := by
      rintro rfl
      obtain ⟨k, hk⟩ := hwin A hA
      have k1 := hk _ hA'
      have k2 := hk _ hB'
      have hjL : j.L = 10000 * l := rfl
      rw [hjL] at k1 k2
      simp only at k1 k2
      have : k * (10000 * l) = 10000 * (k * l) := by ring
      have e2 : (k + 1) * (10000 * l) = 10000 * ((k + 1) * l) := by ring
      rw [this, e2] at k1 k2
      have c1 : k * l < 1 * l := by omega
      have c2 : 1 * l < (k + 1) * l := by omega
      have := lt_of_mul_lt_mul_right c1 hl.le
      have := lt_of_mul_lt_mul_right c2 hl.le
      omega
    refine hAB (List.inj_on_of_nodup_map hnodup hA hB ?_)
    unfold convertedName
    rw [hsame A hA (hne A hA), hsame B hB (hne B hB)]

/-- Four segments: cut at two gaps of almost one second and more, and at the end of a window. -/
example : let j : Job := ⟨[0], 1, 2000000, 253402300799000000, fun _ => .ok [⟨95, [1, 2, 3, 4, 5, 6, 7]⟩, ⟨201, [3]⟩, ⟨399, [3, 4]⟩]⟩
    (convertLoops j none 9).written = [⟨100, [6, 7]⟩, ⟨201, [3]⟩, ⟨399, [3]⟩, ⟨400, [4]⟩] ∧
    NoShortGap (samples (convertLoops j none 9).written) ∧ j.L = 1000000 * 2 ∧
    ∀ tr ∈ (convertLoops j none 9).written, Datable tr.start := by
  unfold NoShortGap Datable
  decide +kernel

/-- Files of 1.5 seconds, a recording without gaps: of the second before the first whole window, the first half is lost. -/
example : let j : Job := ⟨[0], 1, 1500000, 253402300799000000, fun _ => .ok [⟨100, (List.range 60).map fun i : Nat => (i : Int)⟩]⟩
    ∀ name tr, Dir.writeAll (fun _ => none) (segmentWrites (bytes ".012..HDF") (bytes "mseed") (convertLoops j none 9).written) name = some tr →
      ∀ v, (100, v) ∉ stamps tr.start tr.data := by
  intro j
  refine C36_violated_length j 150 1 (by norm_num) rfl none (by simp) ?_ 9 _ _ (by unfold Increasing; decide +kernel) 100 0 50
    (by decide +kernel) (by decide +kernel) (by norm_num) (by norm_num) (Or.inl (by decide +kernel))
  intro b d hd tr htr
  cases hd
  rw [List.mem_singleton.mp htr]
  exact ⟨by simp, by norm_num⟩

example : Datable 150 ∧ ¬ (100 : Int) ∣ 150 ∧ Datable 360000 ∧ (100 : Int) ∣ 360000 := by
  unfold Datable
  decide +kernel

end Gemlog
