import Verif.Props.LimitsRead

/-!
# C33, C53: an end inside the data, for any number of blocks
-/

namespace Gemlog

theorem readBlocks_grow {j : Job} (tt2 : Int) (out : List Trace) (n : Nat) (n1 : Rat) (p : List Trace) (reads : List (List Int))
    (r : Rat × List Trace × List (List Int)) (h : readBlocks j tt2 out n n1 p reads = .done r) : reads <+: r.2.2 := by
  induction n generalizing n1 p reads with
  | zero => simp [readBlocks] at h
  | succ n ih =>
    rw [readBlocks] at h
    have hpre : reads <+: reads ++ [j.block n1] := List.prefix_append _ _
    split at h
    · cases h
    · split at h
      · dsimp only at h
        split at h
        · split at h
          · exact hpre.trans (ih _ _ _ h)
          · cases h
        · exact hpre.trans (ih _ _ _ h)
        · exact hpre.trans (ih _ _ _ h)
      · simp only [Run.done.injEq] at h
        rw [← h]

theorem mainLoop_grow {j : Job} (n : Nat) (s s' : CState) (h : mainLoop j n s = .done s') : s.reads <+: s'.reads := by
  induction n generalizing s with
  | zero => simp [mainLoop] at h
  | succ n ih =>
    rw [mainLoop] at h
    split at h
    · simp only [Run.done.injEq] at h
      rw [h]
    · split at h
      · simp only [Run.done.injEq] at h
        rw [h]
      · dsimp only at h
        generalize min j.t2 (truncTime s.t1 j.day + j.day) = tt2 at h
        cases hr : readBlocks j tt2 s.w.out n s.n1 s.w.p s.reads with
        | running => rw [hr] at h; cases h
        | raised x o => rw [hr] at h; cases h
        | done r =>
          rw [hr] at h
          simp only [Run.bind] at h
          cases hw : writeFull j.L j.t2 n { s.w with p := r.2.1 } with
          | running => rw [hw] at h; cases h
          | raised x o => rw [hw] at h; cases h
          | done w =>
            rw [hw] at h
            dsimp only at h
            cases ht : trimStream w.h j.t2 w.p with
            | error x => rw [ht] at h; cases h
            | ok p =>
              rw [ht] at h
              exact (readBlocks_grow _ _ _ _ _ _ _ hr).trans (ih _ h)

/-- A conversion that ends normally has read the first block with data. -/
theorem convertLoops_first {j : Job} (hb : 0 < j.blockdays) {before after : List (List Int)} {b : List Int} (hblocks : j.blocks = before ++ b :: after)
    (hbefore : j.record before = []) (hdata : j.streamOf b ≠ []) (t1 : Option Int) (n : Nat) (s : CState) (hrun : convertLoops j t1 n = .done s) :
    before ++ [b] <+: s.reads := by
  unfold convertLoops at hrun
  cases hf : firstBlock j n (j.nums.head?.getD 0 : Int) [] with
  | running => rw [hf] at hrun; cases hrun
  | raised x o => rw [hf] at hrun; cases hrun
  | done r =>
    obtain ⟨n2, p0, rd⟩ := r
    obtain ⟨m, b', e1, e2, e3, e4, e5⟩ := firstBlock_first hb n _ _ n2 p0 rd hf
    have e2' : j.blocks = m ++ b' :: j.blocksFrom n2 := e2
    obtain ⟨rfl, rfl, -⟩ := first_unique (hblocks.symm.trans e2') hbefore e3 hdata (by rw [e4]; exact e5)
    simp only [List.nil_append] at e1
    subst e1
    rw [hf] at hrun
    simp only [Run.bind] at hrun
    cases hst : startTime t1 p0 with
    | error x => rw [hst] at hrun; cases hrun
    | ok q =>
      obtain ⟨p, t⟩ := q
      rw [hst] at hrun
      dsimp only at hrun
      split at hrun
      · rename_i s1 hm
        have := mainLoop_grow _ _ _ hm
        split at hrun
        · simp only [Run.done.injEq] at hrun
          rw [← hrun]
          exact this
        · cases hrun
        · cases hrun
      · cases hrun
      · cases hrun

/-- **C53, violated: nothing read in the last window.** Any number of blocks; `t2` (on the sample grid) lies in the window that begins at `k` file lengths.
A conversion that ends normally has read no sample at all between the beginning of that window (or `t1`) and `t2`: whatever data there are, they
are in blocks it has not read. -/
theorem C53_violated_window_read (j : Job) (l c k : Int) (hb : 0 < j.blockdays) (hl : 0 < l) (hL : j.L = 10000 * l) (ht2 : j.t2 = 10000 * c)
    (hk : j.t2 < (k + 1) * j.L) (ho : InOrder (j.record j.blocks)) (t1 : Int) (n : Nat) (s : CState) (hrun : convertLoops j (some t1) n = .done s) :
    (∃ rest, j.blocks = s.reads ++ rest) ∧
    ∀ q ∈ samples (j.record s.reads), t1 ≤ 10000 * q.1 → k * j.L ≤ 10000 * q.1 → j.t2 < 10000 * q.1 := by
  obtain ⟨h1, t0, h2, h3, -⟩ := C53_read_blocks_partial j l hb hl hL ho (some t1) n s hrun
  refine ⟨h1, fun q hq g1 g2 => ?_⟩
  by_contra hc
  have h2' : t0 = t1 := h2
  have := C53_violated_window j l c k hl hL ht2 hk (some t1) n s hrun q (h3 q hq (by omega) (by omega))
  omega

/-- **C33, violated (end), for any number of blocks.** `C33_violated_end` is about one block. Let `b` be the first block with data, whatever blocks follow, and
let `t2` (on the sample grid) not be at the end of a file-length window. If `b` has a sample to be converted in the same window, not after `t2`,
then the conversion fails with an exception. -/
theorem C33_violated_end_blocks (j : Job) (l c k t1 : Int) (hb : 0 < j.blockdays) (hl : 0 < l) (hL : j.L = 10000 * l) (ht2 : j.t2 = 10000 * c)
    (ho : InOrder (j.record j.blocks)) (before after : List (List Int)) (b : List Int) (hblocks : j.blocks = before ++ b :: after)
    (hbefore : j.record before = []) (q : Int × Int) (hq : q ∈ samples (j.streamOf b))
    (h1 : t1 ≤ 10000 * q.1) (h2 : k * j.L ≤ 10000 * q.1) (h3 : 10000 * q.1 ≤ j.t2) (h4 : j.t2 < (k + 1) * j.L) :
    ∃ x out, Settles (convertLoops j (some t1)) (.raised x out) := by
  have hdata : j.streamOf b ≠ [] := by
    intro h
    rw [h] at hq
    simp [samples] at hq
  obtain ⟨N, r, hr, hN⟩ := C31_terminates_partial j l hb hl hL (some t1)
  cases r with
  | running => exact absurd rfl hr
  | raised x out => exact ⟨x, out, by simp, N, hN⟩
  | done s =>
    exfalso
    have hrun := hN N (Nat.le_refl _)
    obtain ⟨more, hm⟩ := convertLoops_first hb hblocks hbefore hdata (some t1) N s hrun
    have hin : q ∈ samples (j.record s.reads) := by
      rw [← hm, record_append, record_append, hbefore, samples_append, samples_append]
      refine List.mem_append_left _ (List.mem_append_right _ ?_)
      rw [show j.record [b] = j.streamOf b ++ [] from rfl, List.append_nil]
      exact hq
    have := (C53_violated_window_read j l c k hb hl hL ht2 h4 ho t1 N s hrun).2 q hin h1 h2
    omega

/-- Two blocks, and an end inside the data of the first one. -/
def endInFirst : Job :=
  ⟨[0, 12], 1, 100000, 250000, fun b => if b == [0] then .ok [⟨3, [1, 2]⟩, ⟨22, [5]⟩] else .ok [⟨40, [7]⟩]⟩

example : 0 < endInFirst.blockdays ∧ endInFirst.L = 10000 * 10 ∧ endInFirst.t2 = 10000 * 25 ∧ InOrder (endInFirst.record endInFirst.blocks) ∧
    endInFirst.blocks = [] ++ [0] :: [[12]] ∧ endInFirst.record [] = [] ∧ (22, 5) ∈ samples (endInFirst.streamOf [0]) ∧
    convertLoops endInFirst (some 0) 8 = .raised .other [⟨3, [1, 2]⟩, ⟨22, [5]⟩] := by
  refine ⟨by decide +kernel, by decide +kernel, by decide +kernel, ⟨by decide +kernel, by unfold Increasing; decide +kernel⟩,
    by decide +kernel, by decide +kernel, by decide +kernel, by decide +kernel⟩

end Gemlog
