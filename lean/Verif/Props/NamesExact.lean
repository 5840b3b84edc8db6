import Verif.Props.NamesDistinct

/-!
# Property C36, exactly

Which recordings lose data because two output files get the same name.
-/

namespace Gemlog

/-! ## Specification -/

/-- In samples `s` cut into windows of `l` samples a file must begin at `x`: there is a sample at `x`, and either none just
before it or `x` is the beginning of a window. -/
def FileBegins (s : List (Int × Int)) (l x : Int) : Prop :=
  (∃ v, (x, v) ∈ s) ∧ ((∀ q ∈ s, q.1 ≠ x - 1) ∨ l ∣ x)

/-! ## Lemmas -/

theorem parted_lt {L : Int} {a b : Trace} (h : Parted L a b) : a.stop < b.start := by
  rcases h with h | ⟨k, k1, k2⟩
  · omega
  · omega

/-- The files of a conversion begin exactly where they must. -/
theorem file_begins_iff {out : List Trace} {l L : Int} (hl : 0 < l) (hL : L = 10000 * l) (hne : ∀ tr ∈ out, tr.data ≠ [])
    (hp : out.Pairwise (Parted L))
    (hwin : ∀ tr ∈ out, ∃ k : Int, ∀ q ∈ stamps tr.start tr.data, k * L ≤ 10000 * q.1 ∧ 10000 * q.1 < (k + 1) * L) (x : Int) :
    FileBegins (samples out) l x ↔ ∃ tr ∈ out, tr.start = x := by
  constructor
  · rintro ⟨⟨v, hv⟩, hf⟩
    obtain ⟨tr, htr, hc⟩ := List.mem_flatMap.mp hv
    refine ⟨tr, htr, ?_⟩
    obtain ⟨h1, h2⟩ := (mem_stamps_iff ..).mp hc
    by_contra hne'
    have hlt : tr.start < x := lt_of_le_of_ne h1 hne'
    have hlen := (List.getElem?_eq_some_iff.mp h2).1
    rcases hf with hf | ⟨m, hm⟩
    · refine hf (x - 1, tr.data[(x - 1 - tr.start).toNat]'(by omega)) ?_ rfl
      refine List.mem_flatMap.mpr ⟨tr, htr, (mem_stamps_iff ..).mpr ⟨by omega, ?_⟩⟩
      exact List.getElem?_eq_getElem _
    · obtain ⟨k, hk⟩ := hwin tr htr
      have e1 := (hk _ hc).2
      obtain ⟨y, hy⟩ := start_mem_stamps (hne tr htr)
      have e2 := (hk _ hy).1
      simp only [hL] at e1 e2
      have e3 : m < k + 1 := by
        have : l * m < l * (k + 1) := by linarith
        exact lt_of_mul_lt_mul_left this hl.le
      have e4 : k < m := by
        have : l * k < l * m := by rw [← hm]; linarith
        exact lt_of_mul_lt_mul_left this hl.le
      omega
  · rintro ⟨tr, htr, rfl⟩
    obtain ⟨v, hv⟩ := start_mem_stamps (hne tr htr)
    refine ⟨⟨v, List.mem_flatMap.mpr ⟨tr, htr, hv⟩⟩, ?_⟩
    by_cases hf : ∀ q ∈ samples out, q.1 ≠ tr.start - 1
    · exact Or.inl hf
    · right
      push Not at hf
      obtain ⟨q, hq, hq1⟩ := hf
      obtain ⟨A, hA, hqA⟩ := List.mem_flatMap.mp hq
      have r1 := (mem_stamps_range hqA).1
      have r2 := sample_le_stop hqA
      have hAtr : A ≠ tr := by
        rintro rfl
        omega
      have hsym : out.Pairwise fun a b => Parted L a b ∨ Parted L b a := hp.imp fun h => Or.inl h
      have : Std.Symm fun a b => Parted L a b ∨ Parted L b a := ⟨fun _ _ h => h.symm⟩
      rcases hsym.forall hA htr hAtr with h | h
      · have hlt := parted_lt h
        rcases h with h | ⟨k, k1, k2⟩
        · omega
        · rw [hL] at k1 k2
          have e : k * (10000 * l) = 10000 * (k * l) := by ring
          rw [e] at k1 k2
          exact ⟨k, by rw [mul_comm]; omega⟩
      · have hlt := parted_lt h
        have := start_le_stop (hne tr htr)
        omega

/-- Files with different names are all there at the end. -/
theorem segments_kept_of_nodup (id fmt : List Nat) {out : List Trace} (hnd : (out.map fun tr => convertedName id fmt tr.start).Nodup)
    (dir : Dir Trace) {tr : Trace} (htr : tr ∈ out) :
    dir.writeAll (segmentWrites id fmt out) (convertedName id fmt tr.start) = some tr := by
  rw [writeAll_get]
  have hf : (segmentWrites id fmt out).filter (fun w => decide (w.1 = convertedName id fmt tr.start)) =
      [(convertedName id fmt tr.start, tr)] := by
    unfold segmentWrites
    rw [List.filter_map]
    have : out.filter ((fun w : List Nat × Trace => decide (w.1 = convertedName id fmt tr.start)) ∘
        fun tr : Trace => (convertedName id fmt tr.start, tr)) = [tr] := by
      induction out with
      | nil => simp at htr
      | cons a l ih =>
        rw [List.map_cons, List.nodup_cons] at hnd
        rcases List.mem_cons.mp htr with rfl | h
        · rw [List.filter_cons_of_pos (by simp)]
          rw [List.filter_eq_nil_iff.mpr]
          intro b hb h2
          simp only [Function.comp, decide_eq_true_eq] at h2
          exact hnd.1 (List.mem_map.mpr ⟨b, hb, h2⟩)
        · rw [List.filter_cons_of_neg, ih hnd.2 h]
          simp only [Function.comp, decide_eq_true_eq]
          intro h2
          exact hnd.1 (List.mem_map.mpr ⟨tr, h, h2.symm⟩)
    rw [this]
    rfl
  rw [hf]
  rfl

/-! ## C36 -/

/-- **C36**, exactly. For every conversion, with every file length on the sample grid, whatever is read and whatever was in the output
folder before: all output segments have different names, and are all there at the end, exactly if in no second two files begin. A
file begins at a sample after a missing one, and at the first sample of a window.
Missing: recordings in which two files begin in one second (`C36_violated`). -/
theorem C36_exact_partial (j : Job) (l : Int) (hl : 0 < l) (hL : j.L = 10000 * l) (t1 : Option Int) (ht1 : ∀ t, t1 = some t → 0 ≤ t)
    (hread : ∀ b d, j.read b = .ok d → (∀ tr ∈ d, tr.data ≠ [] ∧ 0 ≤ tr.start) ∧ (t1 ≠ none → Spaced d)) (n : Nat) (id fmt : List Nat)
    (hdate : ∀ tr ∈ (convertLoops j t1 n).written, Datable tr.start) (dir : Dir Trace) :
    let out := (convertLoops j t1 n).written
    let oneInASecond := ∀ x y, FileBegins (samples out) l x → FileBegins (samples out) l y → x / 100 = y / 100 → x = y
    ((out.map fun tr => convertedName id fmt tr.start).Nodup ↔ oneInASecond) ∧
    ((∀ tr ∈ out, dir.writeAll (segmentWrites id fmt out) (convertedName id fmt tr.start) = some tr) ↔ oneInASecond) := by
  obtain ⟨hne, hp⟩ := written_parted j hl hL t1 (fun h b d hd => (hread b d hd).2 h) n
  have hwin := C30_one_window j (by omega) t1 ht1 (fun b d hd => (hread b d hd).1) n
  generalize (convertLoops j t1 n).written = out at *
  intro out' one
  have hbeg := file_begins_iff hl hL hne hp hwin
  have hlt : out.Pairwise fun a b => a.start < b.start := by
    refine hp.imp_of_mem fun ha _ h => ?_
    have := parted_lt h
    have := start_le_stop (hne _ ha)
    omega
  have hname : ∀ a b : Trace, a.start / 100 = b.start / 100 → convertedName id fmt a.start = convertedName id fmt b.start := by
    intro a b h
    unfold convertedName
    rw [h]
  have back : one → (out.map fun tr => convertedName id fmt tr.start).Nodup := by
    intro h
    rw [List.Nodup, List.pairwise_map]
    refine hlt.imp_of_mem ?_
    intro a b ha hb hab e
    have := convertedName_injective id fmt (hdate a ha) (hdate b hb) e
    have := h a.start b.start ((hbeg _).mpr ⟨a, ha, rfl⟩) ((hbeg _).mpr ⟨b, hb, rfl⟩) this
    omega
  refine ⟨⟨?_, back⟩, ?_, fun h tr htr => segments_kept_of_nodup id fmt (back h) dir htr⟩
  · intro hnd x y hx hy hxy
    obtain ⟨A, hA, rfl⟩ := (hbeg x).mp hx
    obtain ⟨B, hB, rfl⟩ := (hbeg y).mp hy
    rw [List.inj_on_of_nodup_map hnd hA hB (hname A B hxy)]
  · intro hall x y hx hy hxy
    obtain ⟨A, hA, rfl⟩ := (hbeg x).mp hx
    obtain ⟨B, hB, rfl⟩ := (hbeg y).mp hy
    have h1 := hall A hA
    rw [hname A B hxy, hall B hB, Option.some.injEq] at h1
    rw [h1]

/-- A short gap, after which a file begins in the next second: both files are kept. -/
example : let j : Job := ⟨[0], 1, 2000000, 253402300799000000, fun _ => .ok [⟨100, List.replicate 95 1⟩, ⟨203, [3]⟩]⟩
    (convertLoops j none 9).written = [⟨100, List.replicate 95 1⟩, ⟨203, [3]⟩] ∧ j.L = 10000 * 200 ∧
    (∀ tr ∈ (convertLoops j none 9).written, Datable tr.start) ∧
    ((convertLoops j none 9).written.map fun tr => convertedName (bytes ".012..HDF") (bytes "mseed") tr.start).Nodup := by
  unfold Datable
  decide +kernel

/-- A short gap within a second: two files begin in it. -/
example : let j : Job := ⟨[0], 1, 2000000, 253402300799000000, fun _ => .ok [⟨200, [3]⟩, ⟨232, [4]⟩]⟩
    FileBegins (samples (convertLoops j none 9).written) 200 200 ∧ FileBegins (samples (convertLoops j none 9).written) 200 232 := by
  unfold FileBegins
  exact ⟨⟨⟨3, by decide +kernel⟩, Or.inl (by decide +kernel)⟩, ⟨⟨4, by decide +kernel⟩, Or.inl (by decide +kernel)⟩⟩

end Gemlog
