import Verif.Props.Segments
import Verif.Props.ReadSeveral

namespace Gemlog

/-!
# In a record in order, each sample is timed by its own file (C24)

`C24_own_file` asks that no later range contains the sample. In a record whose sample times do not decrease, which
`C18_increasing_partial` gives for the formats with an 8192 ms counter, this can only fail for a sample at the very
count at which a later file starts.
-/

/-- Every element of a part of an ordered list is at most every element of a later part. -/
theorem ordered_parts (a b c : List Rat) (h : (a ++ (b ++ c)).IsChain (· ≤ ·)) :
    ∀ x ∈ b, ∀ y ∈ c, x ≤ y := by
  rw [List.isChain_iff_pairwise] at h
  have h2 := (List.pairwise_append.mp h).2.1
  exact (List.pairwise_append.mp h2).2.2

theorem accepted_append {F : Type} (a b : List (F × Except Exc FileData)) : accepted (a ++ b) = accepted a ++ accepted b := by
  unfold accepted
  rw [List.filterMap_append]

/-- **C24.** Let every file have a serial number, and let the sample times of the record not decrease. Then each sample of an accepted file, except one at the
count zero and one at the very count at which a later file starts, gets the time of the clock fitted to its own file. -/
theorem C24_in_order {F : Type} (ops : FileOps F) (hcov : CoversData ops) (rg : Bool)
    (hdrift : ∀ f L info, ops.drift f L true = .ok info → L.gps ≠ [])
    (version : String) (files : List F) (out : Several F) (h : readSeveral ops files version rg = .ok out)
    (hsn : ∀ f ∈ files, ∃ sn, ops.readSN f = .ok sn) (hinc : (out.data.map Prod.fst).IsChain (· ≤ ·)) :
    ∃ hist : List (F × Except Exc FileData), hist.map Prod.fst = files ∧
      out.data = ((accepted hist).map FileData.data).flatten ∧
      ∀ pre f P post, hist = pre ++ (f, .ok P) :: post → ∀ p ∈ P.data, p.1 ≠ 0 →
        (∀ Q ∈ accepted post, ∀ q ∈ Q.data.head?, q.1 ≠ p.1) →
        ∃ info, ops.drift f P rg = .ok info ∧ applySegments out.header p.1 = some (timeOf info p.1) := by
  obtain ⟨hist, h1, h2, h3, _, _, _, h7⟩ := C15_used_or_reported ops rg version files out h
  refine ⟨hist, h1, h3, ?_⟩
  intro pre f P post hh p hp hp0 hlater
  have hst := history_steady h2 P (by
    unfold accepted
    rw [List.mem_filterMap]
    exact ⟨(f, .ok P), by rw [hh]; simp, rfl⟩)
  obtain ⟨before, row, after, e1, e2, e3, e4⟩ := forall₂_split h7 hh
  have hord : ∀ Q ∈ accepted post, ∀ q ∈ Q.data, p.1 ≤ q.1 := by
    intro Q hQ q hq
    have hd : out.data.map Prod.fst = ((accepted pre).map FileData.data).flatten.map Prod.fst
        ++ (P.data.map Prod.fst ++ ((accepted post).map FileData.data).flatten.map Prod.fst) := by
      rw [h3, hh, accepted_append]
      have : accepted ((f, Except.ok P) :: post) = P :: accepted post := by
        simp [accepted, okPart]
      rw [this]
      simp
    rw [hd] at hinc
    refine ordered_parts _ _ _ hinc p.1 (List.mem_map.mpr ⟨p, hp, rfl⟩) q.1 (List.mem_map.mpr ⟨q, ?_, rfl⟩)
    exact List.mem_flatten.mpr ⟨Q.data, List.mem_map.mpr ⟨Q, hQ, rfl⟩, hq⟩
  have hzero : ¬ (zeroRow.info.startMs ≤ p.1 ∧ p.1 ≤ zeroRow.info.endMs) := by
    unfold zeroRow
    rintro ⟨c1, c2⟩
    exact hp0 (le_antisymm c2 c1)
  have hnone : ∀ r ∈ after, ¬ Contains r p.1 := by
    intro r hr
    obtain ⟨b, a, rfl⟩ := List.append_of_mem hr
    obtain ⟨pre', g, post', e5, e6, _⟩ := forall₂_split e3.flip rfl
    have hmem : g ∈ post := by rw [e5]; simp
    cases e6 with
    | zero g x => exact hzero
    | noSerial g x Q info hd hn =>
      obtain ⟨sn, hsn⟩ := hsn g (by rw [← h1, hh]; simp; exact Or.inr (Or.inr ⟨_, hmem⟩))
      rw [hn] at hsn
      simp at hsn
    | used g Q info sn hd hn =>
      have hQ : Q ∈ accepted post := by
        unfold accepted
        rw [List.mem_filterMap]
        exact ⟨(g, .ok Q), hmem, rfl⟩
      unfold Contains
      intro hc
      have hrec : recordedClock rg Q info = info := by
        unfold recordedClock
        rw [if_neg]
        rintro ⟨rfl, hg⟩
        exact hdrift g Q info hd hg
      simp only [hrec] at hc
      obtain ⟨c1, c2⟩ := hcov g Q rg info hd
      rw [c1, c2] at hc
      cases hQd : Q.data with
      | nil =>
        rw [hQd] at hc
        exact hp0 (le_antisymm hc.2 hc.1)
      | cons q l =>
        have hq := hord Q hQ q (by rw [hQd]; simp)
        rw [hQd] at hc
        exact hlater Q hQ q (by rw [hQd]; simp) (le_antisymm hc.1 hq)
  cases e2 with
  | used _ _ info sn hd hn =>
    have hrec : recordedClock rg P info = info := by
      unfold recordedClock
      rw [if_neg]
      rintro ⟨rfl, hg⟩
      exact hdrift f P info hd hg
    refine ⟨info, hd, ?_⟩
    have hb := chain_bounds _ hst p.1 (List.mem_map.mpr ⟨p, hp, rfl⟩)
    obtain ⟨c1, c2⟩ := hcov f P rg info hd
    have hc : Contains ⟨recordedClock rg P info, P.data.length, sn⟩ p.1 := by
      unfold Contains
      simp only [hrec]
      rw [c1, c2]
      simpa using hb
    have := (C24_last_containing out.header p.1).1 _ ⟨before, after, e1, hc, hnone⟩
    simpa only [hrec] using this

/-- **C24** (formats with an 8192 ms counter). The same for the files that are read with the readers of the package, without the assumption on the record. -/
theorem C24_files_in_order {F : Type} (e : Bool) (readers : F → Readers) (fit : F → Fitter) (readSN : F → Except Exc String) (rg : Bool)
    (version : String) (hv : version = "1.10" ∨ version = "0.91" ∨ version = "0.9" ∨ version = "0.85C") (files : List F)
    (hs : ∀ f t, ((readers f).cython = .ok t ∨ (readers f).pandas = .ok t) → SampleSoon t) (out : Several F)
    (h : readSeveral (readFiles e readers (fun f => calculateDrift (fit f)) readSN) files version rg = .ok out)
    (hsn : ∀ f ∈ files, ∃ sn, readSN f = .ok sn) :
    ∃ hist : List (F × Except Exc FileData), hist.map Prod.fst = files ∧
      out.data = ((accepted hist).map FileData.data).flatten ∧
      ∀ pre f P post, hist = pre ++ (f, .ok P) :: post → ∀ p ∈ P.data, p.1 ≠ 0 →
        (∀ Q ∈ accepted post, ∀ q ∈ Q.data.head?, q.1 ≠ p.1) →
        ∃ info, calculateDrift (fit f) P rg = .ok info ∧ applySegments out.header p.1 = some (timeOf info p.1) :=
  C24_in_order (readFiles e readers (fun f => calculateDrift (fit f)) readSN)
    (fun _ L rg info hd => ⟨(C24_regression_qualifies _ L rg info hd).1, (C24_regression_qualifies _ L rg info hd).2.1⟩) rg
    (fun _ L info hd => (C24_regression_qualifies _ L true info hd).2.2 rfl) version files out h hsn
    (C18_increasing_partial e readers _ readSN rg version hv files hs out h)

/-- Two files in a row that meet the hypotheses, after an unreadable one: the samples are in order, none is at zero or at the start of a later file, and both clocks are
used. -/
def fastThenSlow (f : Table × Bool) (L : FileData) (rg : Bool) : Except Exc HeaderInfo :=
  (nominalDrift f.1 L rg).map fun i => if f.1.rows.length = 3 then { i with deg1 := 1 / 1000 } else i

example :
    ((readSeveral (readFiles true demoReaders fastThenSlow demoSN)
      [(oldFile [30, 40], false), (oldFile [10, 20], true), (oldFile [30, 40, 50], true)] "0.8" false).toOption.map
      fun out => (out.problems.length, out.data.map fun p => applySegments out.header p.1)) =
    some (1, [some (1893 / 100000), some (2893 / 100000), some (128 / 125000 * (3893 / 100)), some (128 / 125000 * (4893 / 100)), some (128 / 125000 * (5893 / 100))]) := by
  decide +kernel

end Gemlog
