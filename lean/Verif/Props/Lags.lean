import Verif.Props.Database
import Verif.Lemmas.Process

/-!
# C86: lags between stations, and what the huddle test makes of them
-/

namespace Gemlog

/-! ## Specification -/

/-- The result for a window compares each of the first `nsta` traces in it with the next, and the last with the first; the consistency is
the sum of the lags. -/
structure Compared (corr : Trace → Trace → Option (Int × Rat)) (p : List DbTrace) (nsta : Nat) (w : LagWindow) : Prop where
  lags : w.lags.length = nsta
  coefs : w.coefs.length = nsta
  pairs : ∀ i < nsta, ∃ a b l c, p[i]? = some a ∧ p[(i + 1) % nsta]? = some b ∧ corr a.trace b.trace = some (l, c) ∧
    w.lags[i]? = some l ∧ w.coefs[i]? = some c
  sum : w.consistency = w.lags.sum

/-- The lags close, and the median of the coefficients is above 0.8. -/
def Coherent (w : LagWindow) : Prop := w.consistency = 0 ∧ ∃ m, Stats.IsMedian m w.coefs ∧ 4 / 5 < m

/-! ## Windows -/

theorem mapM_iff {α β : Type} (f : α → Option β) (l : List α) (r : List β) : l.mapM f = some r ↔ r.map some = l.map f := by
  constructor
  · exact mapM_get f l r
  · induction l generalizing r with
    | nil => intro h; simp at h; subst h; rfl
    | cons a l ih =>
      intro h
      cases r with
      | nil => simp at h
      | cons b r =>
        simp only [List.map_cons, List.cons.injEq] at h
        rw [List.mapM_cons, ← h.1, ih r h.2]
        rfl

/-- One pair. -/
def pairLag (corr : Trace → Trace → Option (Int × Rat)) (nsta : Nat) (p : List DbTrace) (i : Nat) : Option (Int × Rat) :=
  match p[i]?, p[(i + 1) % nsta]? with
  | some a, some b => corr a.trace b.trace
  | _, _ => none

theorem pairLag_some {corr : Trace → Trace → Option (Int × Rat)} {nsta : Nat} {p : List DbTrace} {i : Nat} {q : Int × Rat} :
    pairLag corr nsta p i = some q ↔ ∃ a b, p[i]? = some a ∧ p[(i + 1) % nsta]? = some b ∧ corr a.trace b.trace = some q := by
  unfold pairLag
  cases h1 : p[i]? with
  | none => simp
  | some a =>
    cases h2 : p[(i + 1) % nsta]? with
    | none => simp
    | some b => simp

theorem lagWindow_iff (corr : Trace → Trace → Option (Int × Rat)) (st : List DbTrace) (nsta : Nat) (win t : Int) (w : LagWindow) :
    lagWindow corr st nsta win t = some w ↔ w.t = t ∧ Compared corr (sliceNearStream t (t + win) st) nsta w := by
  have hw : ∀ p, windowLags corr nsta p = (List.range nsta).mapM (pairLag corr nsta p) := fun p => rfl
  unfold lagWindow
  rw [hw]
  generalize sliceNearStream t (t + win) st = p
  constructor
  · intro h
    obtain ⟨r, h1, h2⟩ := Option.map_eq_some_iff.mp h
    rw [mapM_iff] at h1
    have hl : r.length = nsta := by simpa using congrArg List.length h1
    subst h2
    refine ⟨rfl, by simpa using hl, by simpa using hl, ?_, rfl⟩
    intro i hi
    have h3 := congrArg (fun l : List (Option (Int × Rat)) => l[i]?) h1
    simp only [List.getElem?_map, List.getElem?_range hi, Option.map_some] at h3
    obtain ⟨q, hq⟩ : ∃ q, r[i]? = some q := ⟨r[i], List.getElem?_eq_getElem (by omega)⟩
    rw [hq] at h3
    simp only [Option.map_some, Option.some.injEq] at h3
    obtain ⟨a, b, p1, p2, p3⟩ := pairLag_some.mp h3.symm
    exact ⟨a, b, q.1, q.2, p1, p2, p3, by simp [hq], by simp [hq]⟩
  · rintro ⟨rfl, h⟩
    rw [Option.map_eq_some_iff]
    refine ⟨w.lags.zip w.coefs, ?_, ?_⟩
    · rw [mapM_iff]
      apply List.ext_getElem?
      intro i
      simp only [List.getElem?_map]
      by_cases hi : i < nsta
      · obtain ⟨a, b, l, c, p1, p2, p3, p4, p5⟩ := h.pairs i hi
        rw [List.getElem?_range hi, (List.getElem?_zip_eq_some (z := (l, c))).mpr ⟨p4, p5⟩]
        simp only [Option.map_some, Option.some.injEq]
        exact (pairLag_some.mpr ⟨a, b, p1, p2, p3⟩).symm
      · rw [List.getElem?_eq_none (l := w.lags.zip w.coefs) (by rw [List.length_zip, h.lags, h.coefs]; omega),
          List.getElem?_eq_none (l := List.range nsta) (by simp only [List.length_range]; omega)]
        rfl
    · have e1 : (w.lags.zip w.coefs).map Prod.fst = w.lags := List.map_fst_zip (by rw [h.lags, h.coefs])
      have e2 : (w.lags.zip w.coefs).map Prod.snd = w.coefs := List.map_snd_zip (by rw [h.lags, h.coefs])
      rw [e1, e2, ← h.sum]

theorem lagLoop_spec (corr : Trace → Trace → Option (Int × Rat)) (st : List DbTrace) (nsta : Nat) (win stop : Int) (hwin : 0 < win)
    (t1 : Int) : ∃ ws N, (∀ n ≥ N, lagLoop corr st nsta win stop n t1 = some ws) ∧ (ws.map LagWindow.t).Pairwise (· < ·) ∧
      ∀ w, w ∈ ws ↔ ∃ k : Nat, w.t = t1 + (k + 1) * win ∧ t1 + k * win < stop ∧ Compared corr (sliceNearStream w.t (w.t + win) st) nsta w := by
  obtain ⟨m, hm⟩ : ∃ m, m = (stop - t1).toNat := ⟨_, rfl⟩
  induction m using Nat.strong_induction_on generalizing t1 with
  | _ m ih =>
    by_cases hc : t1 < stop
    · obtain ⟨ws, N, h1, h2, h3⟩ := ih _ (by omega) (t1 + win) rfl
      refine ⟨(lagWindow corr st nsta win (t1 + win)).toList ++ ws, N + 1, ?_, ?_, ?_⟩
      · intro n hn
        obtain ⟨n, rfl⟩ : ∃ k, n = k + 1 := ⟨n - 1, by omega⟩
        rw [lagLoop, if_pos hc, h1 n (by omega)]
        rfl
      · rw [List.map_append, List.pairwise_append]
        refine ⟨?_, h2, ?_⟩
        · cases lagWindow corr st nsta win (t1 + win) <;> simp
        · intro a ha b hb
          obtain ⟨x, hx, rfl⟩ := List.mem_map.mp ha
          obtain ⟨y, hy, rfl⟩ := List.mem_map.mp hb
          rw [Option.mem_toList, lagWindow_iff] at hx
          obtain ⟨k, hk, _⟩ := (h3 y).mp hy
          rw [hx.1, hk]
          have : 0 ≤ (k : Int) * win := by positivity
          nlinarith
      · intro w
        rw [List.mem_append, Option.mem_toList, lagWindow_iff, h3]
        constructor
        · rintro (⟨e1, e2⟩ | ⟨k, e1, e2, e3⟩)
          · refine ⟨0, by rw [e1]; push_cast; ring, by simpa using hc, ?_⟩
            rw [e1]; exact e2
          · refine ⟨k + 1, by rw [e1]; push_cast; ring, ?_, e3⟩
            push_cast
            linarith
        · rintro ⟨k, e1, e2, e3⟩
          cases k with
          | zero =>
            left
            have e4 : w.t = t1 + win := by rw [e1]; push_cast; ring
            rw [← e4]
            exact ⟨rfl, e3⟩
          | succ k =>
            right
            refine ⟨k, by rw [e1]; push_cast; ring, ?_, e3⟩
            push_cast at e2
            linarith
    · refine ⟨[], 1, ?_, by simp, ?_⟩
      · intro n hn
        obtain ⟨n, rfl⟩ : ∃ k, n = k + 1 := ⟨n - 1, by omega⟩
        rw [lagLoop, if_neg hc]
      · intro w
        simp only [List.not_mem_nil, false_iff]
        rintro ⟨k, _, e2, _⟩
        have : 0 ≤ (k : Int) * win := by positivity
        omega

/-! ## C86 -/

theorem uniqueIn_length (l : List (List Nat)) : (uniqueIn l).length = l.toFinset.card := by
  rw [← List.toFinset_card_of_nodup (uniqueIn_nodup l)]
  congr 1
  ext x
  rw [List.mem_toFinset, List.mem_toFinset, mem_uniqueIn]

theorem checkLags_eq (env : DbEnv) (filt : DbTrace → DbTrace) (corr : Trace → Trace → Option (Int × Rat)) (db : List DbRow) (win : Int)
    (first last T : Int) (hf : first ∈ db.map DbRow.t1 ∧ ∀ x ∈ db.map DbRow.t1, first ≤ x)
    (hl : last ∈ db.map DbRow.t2 ∧ ∀ x ∈ db.map DbRow.t2, x ≤ last)
    (hT : 3600000000 ∣ T ∧ T ≤ 10000 * first ∧ 10000 * first < T + 3600000000)
    (hread : ∀ r ∈ db, ∃ st, env.read r.filename = some st) (n : Nat) :
    checkLags env filt corr db win n = some (lagLoop corr (db.flatMap fun r => env.traces r.filename) (db.map DbRow.station).toFinset.card
      win (10000 * last) n (T + 1)) := by
  cases db with
  | nil => simp at hf
  | cons r rs =>
    have hm : ((r :: rs).map DbRow.filename).mapM env.read = some ((r :: rs).map fun r => env.traces r.filename) := by
      rw [mapM_iff, List.map_map, List.map_map]
      apply List.map_congr_left
      intro x hx
      obtain ⟨st, hst⟩ := hread x hx
      simp [DbEnv.traces, hst]
    have e1 : (rs.map DbRow.t1).foldl Min.min r.t1 = first := by
      obtain ⟨h1, h2⟩ := foldlMin_spec (rs.map DbRow.t1) r.t1
      apply le_antisymm
      · exact h2 _ (by simpa using hf.1)
      · exact hf.2 _ (by simpa using h1)
    have e2 : (rs.map DbRow.t2).foldl Max.max r.t2 = last := by
      obtain ⟨h1, h2⟩ := foldlMax_spec (rs.map DbRow.t2) r.t2
      apply le_antisymm
      · exact hl.2 _ (by simpa using h1)
      · exact h2 _ (by simpa using hl.1)
    have e3 : hourStart (10000 * first) = T := by
      obtain ⟨⟨q, rfl⟩, h2, h3⟩ := hT
      unfold hourStart
      omega
    unfold checkLags
    rw [hm]
    simp only [e1, e2, e3, uniqueIn_length, List.map_nil, List.nil_append, List.flatMap]

/-- `check_lags` ends for every positive window length, and returns, in order of time, exactly the windows at `T + k * win` (with `T` the
beginning of the hour of the first row, plus a microsecond, and `k ≥ 1`, as long as the window before begins before the end of the data) in
which there are at least as many traces as stations and all correlations succeed; for each, the lags of the first traces in it. -/
theorem C86_windows (env : DbEnv) (filt : DbTrace → DbTrace) (corr : Trace → Trace → Option (Int × Rat)) (db : List DbRow) (win : Int)
    (hwin : 0 < win) (first last T : Int) (hf : first ∈ db.map DbRow.t1 ∧ ∀ x ∈ db.map DbRow.t1, first ≤ x)
    (hl : last ∈ db.map DbRow.t2 ∧ ∀ x ∈ db.map DbRow.t2, x ≤ last)
    (hT : 3600000000 ∣ T ∧ T ≤ 10000 * first ∧ 10000 * first < T + 3600000000)
    (hread : ∀ r ∈ db, ∃ st, env.read r.filename = some st) :
    ∃ ws N, (∀ n ≥ N, checkLags env filt corr db win n = some (some ws)) ∧ (ws.map LagWindow.t).Pairwise (· < ·) ∧
      ∀ w, w ∈ ws ↔ ∃ k : Nat, w.t = T + 1 + (k + 1) * win ∧ T + 1 + k * win < 10000 * last ∧
        Compared corr (sliceNearStream w.t (w.t + win) (db.flatMap fun r => env.traces r.filename)) (db.map DbRow.station).toFinset.card w := by
  obtain ⟨ws, N, h1, h2, h3⟩ := lagLoop_spec corr (db.flatMap fun r => env.traces r.filename) (db.map DbRow.station).toFinset.card win
    (10000 * last) hwin (T + 1)
  refine ⟨ws, N, ?_, h2, h3⟩
  intro n hn
  rw [checkLags_eq env filt corr db win first last T hf hl hT hread, h1 n hn]

theorem sliceNear_sub (s e : Int) (tr : Trace) (q : Int × Int) (h : q ∈ stamps (tr.sliceNear s e).start (tr.sliceNear s e).data) :
    q ∈ stamps tr.start tr.data ∧ s - 5000 < 10000 * q.1 ∧ 10000 * q.1 ≤ e + 5000 := by
  have hlow : ∀ q ∈ stamps (tr.ltrim (roundAway (s - 10000 * tr.start))).start (tr.ltrim (roundAway (s - 10000 * tr.start))).data,
      q ∈ stamps tr.start tr.data ∧ s - 5000 < 10000 * q.1 := by
    intro q hq
    rw [ltrim_stamps, List.mem_filter] at hq
    refine ⟨hq.1, ?_⟩
    have h1 := mem_stamps_range hq.1
    have h2 : tr.start + roundAway (s - 10000 * tr.start) ≤ q.1 := by simpa using hq.2
    unfold roundAway at h2
    split_ifs at h2 <;> omega
  unfold Trace.sliceNear at h
  simp only at h
  generalize tr.ltrim (roundAway (s - 10000 * tr.start)) = a at h hlow
  by_cases hb : e < 10000 * a.start ∧ roundAway (e - 10000 * a.start) = 0
  · unfold Trace.rtrim at h
    rw [hb.2] at h
    split_ifs at h with c1 c2
    · obtain ⟨h1, h2⟩ := hlow q h
      refine ⟨h1, h2, ?_⟩
      have h3 := mem_stamps_range h
      have h4 := hb.2
      unfold roundAway at h4
      split_ifs at h4 <;> omega
    · simp [stamps] at h
    · simp [hb.1] at c2
  · rw [rtrim_stamps _ (a.start + roundAway (e - 10000 * a.start)), List.mem_filter] at h
    · obtain ⟨h1, h2⟩ := hlow q h.1
      refine ⟨h1, h2, ?_⟩
      have h3 := mem_stamps_range h.1
      have h5 : q.1 ≤ a.start + roundAway (e - 10000 * a.start) := by simpa using h.2
      unfold roundAway at h5
      split_ifs at h5 <;> omega
    · left; ring
    · simp only [decide_eq_true_eq]
      unfold roundAway at hb ⊢
      split_ifs at hb ⊢ <;> omega

theorem sliceNear_sup (s e : Int) (tr : Trace) (q : Int × Int) (h : q ∈ stamps tr.start tr.data) (h1 : s - 5000 < 10000 * q.1)
    (h2 : 10000 * q.1 ≤ e) : q ∈ stamps (tr.sliceNear s e).start (tr.sliceNear s e).data := by
  have hr := mem_stamps_range h
  have hq : q ∈ stamps (tr.ltrim (roundAway (s - 10000 * tr.start))).start (tr.ltrim (roundAway (s - 10000 * tr.start))).data := by
    rw [ltrim_stamps, List.mem_filter]
    refine ⟨h, ?_⟩
    simp only [decide_eq_true_eq]
    unfold roundAway
    split_ifs <;> omega
  unfold Trace.sliceNear
  simp only
  generalize tr.ltrim (roundAway (s - 10000 * tr.start)) = a at hq
  have hra := mem_stamps_range hq
  rw [rtrim_stamps _ (a.start + roundAway (e - 10000 * a.start)), List.mem_filter]
  · refine ⟨hq, ?_⟩
    simp only [decide_eq_true_eq]
    unfold roundAway
    split_ifs <;> omega
  · left; ring
  · simp only [decide_eq_true_eq]
    unfold roundAway
    split_ifs <;> omega

/-- The traces in a window are the recorded traces cut to it, to within half a sample: nothing outside, nothing inside left out; traces
without samples in it do not count. -/
theorem C86_cut (s e : Int) (st : List DbTrace) :
    ∃ cut : DbTrace → DbTrace, sliceNearStream s e st = (st.map cut).filter (fun tr => tr.trace.data ≠ []) ∧ ∀ tr ∈ st,
      (cut tr).station = tr.station ∧
      (∀ q ∈ stamps (cut tr).trace.start (cut tr).trace.data, q ∈ stamps tr.trace.start tr.trace.data ∧
        s - 5000 < 10000 * q.1 ∧ 10000 * q.1 ≤ e + 5000) ∧
      ∀ q ∈ stamps tr.trace.start tr.trace.data, s ≤ 10000 * q.1 → 10000 * q.1 ≤ e → q ∈ stamps (cut tr).trace.start (cut tr).trace.data := by
  refine ⟨fun tr => { tr with trace := tr.trace.sliceNear s e }, ?_, ?_⟩
  · unfold sliceNearStream
    apply List.filter_congr
    intro tr _
    cases tr.trace.data <;> simp
  · intro tr _
    refine ⟨rfl, fun q hq => sliceNear_sub s e tr.trace q hq, fun q hq h1 h2 => ?_⟩
    exact sliceNear_sup s e tr.trace q hq (by omega) h2

/-- If the first traces in a window belong to the stations, one to each and in their order, each station is compared with the next one.
Missing: nothing in the code ensures this; see `C86_violated_pairs`. -/
theorem C86_stations_partial (corr : Trace → Trace → Option (Int × Rat)) (p : List DbTrace) (stations : List (List Nat)) (w : LagWindow)
    (h : Compared corr p stations.length w) (hone : (p.map DbTrace.station).take stations.length = stations) (i : Nat)
    (hi : i < stations.length) :
    ∃ a ∈ p, ∃ b ∈ p, stations[i]? = some a.station ∧ stations[(i + 1) % stations.length]? = some b.station ∧
      ∃ l c, corr a.trace b.trace = some (l, c) ∧ w.lags[i]? = some l ∧ w.coefs[i]? = some c := by
  obtain ⟨a, b, l, c, h1, h2, h3, h4, h5⟩ := h.pairs i hi
  have key : ∀ j < stations.length, ∀ x, p[j]? = some x → stations[j]? = some x.station := by
    intro j hj x hx
    conv_lhs => rw [← hone]
    rw [List.getElem?_take_of_lt hj, List.getElem?_map, hx]
    rfl
  exact ⟨a, List.mem_of_getElem? h1, b, List.mem_of_getElem? h2, key i hi a h1, key _ (Nat.mod_lt _ (by omega)) b h2, l, c, h3, h4, h5⟩

/-- Violated: traces are paired by their place in the list. If a station has more than one trace in a window (a gap), the traces behind the
first ones do not matter at all: with two stations, the two pieces of the first are compared with each other. -/
theorem C86_violated_pairs (corr : Trace → Trace → Option (Int × Rat)) (a1 a2 : DbTrace) (rest : List DbTrace) :
    windowLags corr 2 (a1 :: a2 :: rest) =
      ((corr a1.trace a2.trace).bind fun x => (corr a2.trace a1.trace).map fun y => [x, y]) := by
  have : windowLags corr 2 (a1 :: a2 :: rest) = (List.range 2).mapM (pairLag corr 2 (a1 :: a2 :: rest)) := rfl
  rw [this, show List.range 2 = [0, 1] from rfl]
  have p0 : pairLag corr 2 (a1 :: a2 :: rest) 0 = corr a1.trace a2.trace := rfl
  have p1 : pairLag corr 2 (a1 :: a2 :: rest) 1 = corr a2.trace a1.trace := rfl
  simp only [List.mapM_cons, p0, p1]
  cases corr a1.trace a2.trace with
  | none => rfl
  | some x =>
    cases corr a2.trace a1.trace with
    | none => rfl
    | some y => rfl

/-- Violated: the band does not matter. The filter is applied before there are data. -/
theorem C86_violated_filter (env : DbEnv) (filt filt' : DbTrace → DbTrace) (corr : Trace → Trace → Option (Int × Rat)) (db : List DbRow)
    (win : Int) (n : Nat) : checkLags env filt corr db win n = checkLags env filt' corr db win n := rfl

/-- Violated: the first window is left out; nothing is returned for data that end before a window length has passed since the beginning
of the hour. -/
theorem C86_violated_first (env : DbEnv) (filt : DbTrace → DbTrace) (corr : Trace → Trace → Option (Int × Rat)) (db : List DbRow) (win : Int)
    (hwin : 0 < win) (first last T : Int) (hf : first ∈ db.map DbRow.t1 ∧ ∀ x ∈ db.map DbRow.t1, first ≤ x)
    (hl : last ∈ db.map DbRow.t2 ∧ ∀ x ∈ db.map DbRow.t2, x ≤ last)
    (hT : 3600000000 ∣ T ∧ T ≤ 10000 * first ∧ 10000 * first < T + 3600000000)
    (hread : ∀ r ∈ db, ∃ st, env.read r.filename = some st)
    (hend : ∀ r ∈ db, ∀ tr ∈ env.traces r.filename, ∀ q ∈ stamps tr.trace.start tr.trace.data, 10000 * q.1 + 5000 ≤ T + win) :
    ∃ N, ∀ n ≥ N, checkLags env filt corr db win n = some (some []) := by
  obtain ⟨ws, N, h1, _, h3⟩ := C86_windows env filt corr db win hwin first last T hf hl hT hread
  have hws : ws = [] := by
    rw [List.eq_nil_iff_forall_not_mem]
    intro w hw
    obtain ⟨k, k1, _, k3⟩ := (h3 w).mp hw
    have hpos : 0 < (db.map DbRow.station).toFinset.card := by
      rw [Finset.card_pos]
      cases db with
      | nil => simp at hf
      | cons r rs => exact ⟨r.station, by simp⟩
    obtain ⟨a, _, _, _, ha, _⟩ := k3.pairs 0 hpos
    have ha' := List.mem_of_getElem? ha
    obtain ⟨cut, c1, c2⟩ := C86_cut w.t (w.t + win) (db.flatMap fun r => env.traces r.filename)
    rw [c1, List.mem_filter] at ha'
    obtain ⟨tr, t1, rfl⟩ := List.mem_map.mp ha'.1
    obtain ⟨r, r1, r2⟩ := List.mem_flatMap.mp t1
    have hne : (cut tr).trace.data ≠ [] := by simpa using ha'.2
    cases hd : (cut tr).trace.data with
    | nil => exact hne hd
    | cons x l =>
      obtain ⟨_, c3, _⟩ := c2 tr t1
      obtain ⟨c4, c5, _⟩ := c3 ((cut tr).trace.start, x) (by rw [hd]; simp [stamps])
      have c6 := hend r r1 tr r2 _ c4
      have : 0 ≤ (k : Int) * win := by positivity
      simp only at c5 c6
      nlinarith
  rw [hws] at h1
  exact ⟨N, h1⟩

/-! ## What the huddle test reports -/

theorem isMedian_unique {m m' : Rat} {v : List Rat} (h : Stats.IsMedian m v) (h' : Stats.IsMedian m' v) : m = m' := by
  obtain ⟨s, p1, o1, c⟩ := h
  obtain ⟨s', p2, o2, c'⟩ := h'
  have hs : s' = s := List.Perm.eq_of_pairwise (fun a b _ _ h1 h2 => le_antisymm h1 h2) o2 o1 (p2.trans p1.symm)
  subst hs
  rcases c with ⟨a, b, e, hl⟩ | ⟨a, b, x, y, e, hl, hm⟩ <;> rcases c' with ⟨a', b', e', hl'⟩ | ⟨a', b', x', y', e', hl', hm'⟩
  · have hlen := congrArg List.length (e.symm.trans e')
    simp only [List.length_append, List.length_cons] at hlen
    have := (List.append_inj (e.symm.trans e') (by omega)).2
    simp only [List.cons.injEq] at this
    exact this.1
  · have hlen := congrArg List.length (e.symm.trans e')
    simp only [List.length_append, List.length_cons] at hlen
    omega
  · have hlen := congrArg List.length (e.symm.trans e')
    simp only [List.length_append, List.length_cons] at hlen
    omega
  · have hlen := congrArg List.length (e.symm.trans e')
    simp only [List.length_append, List.length_cons] at hlen
    have := (List.append_inj (e.symm.trans e') (by omega)).2
    simp only [List.cons.injEq] at this
    rw [hm, hm', this.1, this.2.1]

theorem coherent_iff (w : LagWindow) (hc : w.coefs ≠ []) : w.coherent = true ↔ Coherent w := by
  unfold LagWindow.coherent Coherent
  rw [decide_eq_true_eq]
  constructor
  · rintro ⟨h1, h2⟩
    exact ⟨h1, _, medianRat_isMedian _ hc, h2⟩
  · rintro ⟨h1, m, h2, h3⟩
    rw [isMedian_unique (medianRat_isMedian _ hc) h2]
    exact ⟨h1, h3⟩

/-- Nonzero lags are reported exactly if some windows are coherent and in less than four fifths of them all lags are zero. -/
theorem C86_report [DecidablePred Coherent] (ws : List LagWindow) (hc : ∀ w ∈ ws, w.coefs ≠ []) :
    lagsReported ws = true ↔ (∃ w ∈ ws, Coherent w) ∧
      5 * (ws.filter fun w => decide (Coherent w ∧ ∀ x ∈ w.lags, x = 0)).length < 4 * (ws.filter fun w => decide (Coherent w)).length := by
  have e1 : ws.filter LagWindow.coherent = ws.filter fun w => decide (Coherent w) := by
    apply List.filter_congr
    intro w hw
    have := coherent_iff w (hc w hw)
    by_cases h : Coherent w
    · simp [h, this.mpr h]
    · have : w.coherent = false := by
        cases hh : w.coherent with
        | false => rfl
        | true => exact absurd (this.mp hh) h
      simp [h, this]
  have e2 : (ws.filter LagWindow.coherent).filter (fun w => w.lags.all fun x => x == 0) =
      ws.filter fun w => decide (Coherent w ∧ ∀ x ∈ w.lags, x = 0) := by
    rw [e1, List.filter_filter]
    apply List.filter_congr
    intro w _
    rw [Bool.eq_iff_iff]
    simp [and_comm]
  have e3 : (∃ w ∈ ws, Coherent w) ↔ (ws.filter fun w => decide (Coherent w)).length ≠ 0 := by
    rw [ne_eq, List.length_eq_zero_iff, List.filter_eq_nil_iff]
    push Not
    simp
  unfold lagsReported
  simp only [e2]
  rw [e1, e3]
  generalize (ws.filter fun w => decide (Coherent w)).length = g
  generalize (ws.filter fun w => decide (Coherent w ∧ ∀ x ∈ w.lags, x = 0)).length = z
  by_cases hg : g = 0
  · simp [hg]
  · rw [if_neg hg, decide_eq_true_eq]
    have hg' : (0 : Rat) < g := by exact_mod_cast Nat.pos_of_ne_zero hg
    rw [div_lt_div_iff₀ hg' (by norm_num)]
    constructor
    · intro h
      refine ⟨hg, ?_⟩
      have : (5 * z : Rat) < 4 * g := by linarith
      exact_mod_cast this
    · rintro ⟨_, h⟩
      have : (5 * z : Rat) < 4 * g := by exact_mod_cast h
      linarith

/-- Violated: if no window is coherent, the huddle test notes that the lags in coherent windows are mostly zero. -/
theorem C86_violated_incoherent (ws : List LagWindow) (h : ∀ w ∈ ws, w.coherent = false) : lagsReported ws = false := by
  unfold lagsReported
  have : ws.filter LagWindow.coherent = [] := by
    rw [List.filter_eq_nil_iff]
    intro w hw
    simp [h w hw]
  simp [this]

/-! ## Examples -/

/-- Two stations, thirty hundredths of a second each; the second file has a gap. -/
def demoLagEnv : DbEnv where
  read f :=
    if f = bytes "a" then some [⟨bytes "076", [], ⟨0, List.replicate 30 1⟩⟩]
    else if f = bytes "b" then some [⟨bytes "077", [], ⟨0, List.replicate 12 2⟩⟩, ⟨bytes "077", [], ⟨14, List.replicate 16 2⟩⟩]
    else none
  amp _ := 1

/-- Its database. -/
def demoLagDb : List DbRow := [⟨bytes "a", bytes "076", [], 1, 1, 1, 0, 29⟩, ⟨bytes "b", bytes "077", [], 1, 2, 2, 0, 11⟩]

theorem demoLag_db : (makeDb demoLagEnv [bytes "a", bytes "b"]).toOption = some demoLagDb := by decide +kernel

/-- The difference of the lengths stands for the lag. -/
def demoCorr (a b : Trace) : Option (Int × Rat) := some ((a.data.length : Int) - b.data.length, 1)

/-- Windows of a tenth of a second: the first is left out; in the second there are two pieces of station 077 beside station 076. -/
theorem demoLag_run : checkLags demoLagEnv id demoCorr demoLagDb 100000 10 =
    some (some [⟨100001, [9, -9], [1, 1], 0⟩, ⟨200001, [0, 0], [1, 1], 0⟩]) := by decide +kernel

example : ((0 : Int) ∈ demoLagDb.map DbRow.t1 ∧ ∀ x ∈ demoLagDb.map DbRow.t1, (0 : Int) ≤ x) ∧
    ((29 : Int) ∈ demoLagDb.map DbRow.t2 ∧ ∀ x ∈ demoLagDb.map DbRow.t2, x ≤ (29 : Int)) ∧
    ((3600000000 : Int) ∣ 0 ∧ (0 : Int) ≤ 10000 * 0 ∧ (10000 * 0 : Int) < 0 + 3600000000) ∧
    ∀ r ∈ demoLagDb, (demoLagEnv.read r.filename).isSome := by decide +kernel

example : Coherent ⟨0, [0, 0], [1, 1], 0⟩ := ⟨rfl, 1, ⟨[1, 1], List.Perm.refl _, by simp, Or.inr ⟨[], [], 1, 1, rfl, rfl, by norm_num⟩⟩, by norm_num⟩

example : lagsReported [⟨0, [1, -1], [1, 1], 0⟩, ⟨1, [0, 0], [1, 1], 0⟩] = true ∧ lagsReported [⟨0, [1, 1], [1, 1], 2⟩] = false := by
  decide +kernel

end Gemlog
