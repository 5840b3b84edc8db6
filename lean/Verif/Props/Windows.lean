import Mathlib.Tactic.Ring
import Mathlib.Tactic.Linarith
import Mathlib.Tactic.Positivity
import Mathlib.Tactic.FieldSimp
import Mathlib.Tactic.NormNum
import Verif.Model.Windows

/-!
# C50, C51: sliding windows

Specification: `Spans st t1 t2`: the data, by its first trace, run from time `t1` to time `t2`.
-/

namespace Gemlog

/-- The first trace of the stream runs from `t1` to `t2`. -/
def Spans (st : List WTrace) (t1 t2 : Rat) : Prop :=
  ∃ tr rest a b, st = tr :: rest ∧ tr.samples.head? = some a ∧ a.1 = t1 ∧ tr.samples.getLast? = some b ∧ b.1 = t2

theorem windowStarts_spans {st : List WTrace} {t1 t2 win overlap : Rat} (h : Spans st t1 t2) :
    windowStarts st win overlap =
      if win * (1 - overlap) = 0 then .error .other
      else if numWindows (t2 - t1) win overlap = 1 then .error .other
      else .ok ((List.range (numWindows (t2 - t1) win overlap)).map fun i : Nat =>
        t1 + (i : Rat) * (t2 - t1 - win) / ((numWindows (t2 - t1) win overlap : Rat) - 1)) := by
  obtain ⟨tr, rest, a, b, rfl, ha, rfl, hb, rfl⟩ := h
  simp only [windowStarts, List.head?_cons, ha, hb]

theorem numWindows_long {len win overlap : Rat} (hw : 0 < win) (ho : overlap < 1)
    (hl : win + win * (1 - overlap) / 1000000 < len) :
    ∃ k : Nat, 1 ≤ k ∧ numWindows len win overlap = k + 1 ∧
      ((k : Rat) - 1) * (win * (1 - overlap)) + win * (1 - overlap) / 1000000 < len - win ∧
      len - win ≤ (k : Rat) * (win * (1 - overlap)) + win * (1 - overlap) / 1000000 := by
  have hp : 0 < win * (1 - overlap) := mul_pos hw (by linarith)
  set p := win * (1 - overlap) with hpdef
  set x := (len - win) / p - 1 / 1000000 with hx
  have hxpos : 0 < x := by
    rw [hx, sub_pos, lt_div_iff₀ hp]; linarith
  have hk : 1 ≤ ⌈x⌉ := Int.one_le_ceil_iff.mpr hxpos
  refine ⟨⌈x⌉.toNat, by omega, ?_, ?_, ?_⟩
  · show (1 + ⌈x⌉).toNat = _
    omega
  · have h1 : (⌈x⌉ : Rat) < x + 1 := Int.ceil_lt_add_one x
    have h2 : ((⌈x⌉.toNat : Nat) : Rat) = (⌈x⌉ : Rat) := by
      have : ((⌈x⌉.toNat : Nat) : Int) = ⌈x⌉ := by omega
      exact_mod_cast this
    have h3 : ((⌈x⌉.toNat : Nat) : Rat) - 1 + 1 / 1000000 < (len - win) / p := by rw [h2]; linarith
    rw [lt_div_iff₀ hp] at h3
    linarith
  · have h1 : x ≤ (⌈x⌉ : Rat) := Int.le_ceil x
    have h2 : ((⌈x⌉.toNat : Nat) : Rat) = (⌈x⌉ : Rat) := by
      have : ((⌈x⌉.toNat : Nat) : Int) = ⌈x⌉ := by omega
      exact_mod_cast this
    have h3 : (len - win) / p ≤ ((⌈x⌉.toNat : Nat) : Rat) + 1 / 1000000 := by rw [h2]; linarith
    rw [div_le_iff₀ hp] at h3
    linarith

/-- C50. If the data are longer than a window, the windows start at the first sample, the last of them starts one window length
before the end, they are equally spaced, at most `win * (1 - overlap)` apart (up to a part in a million), and any smaller number of
windows (two or more) would be further apart than that. Partial: the data must be longer than a window (see `C50_violated_one` and
`C50_violated_short`), and though the last window ends at the last sample, it does not contain it (see `C50_violated_last`). -/
theorem C50_windows_partial (st : List WTrace) (t1 t2 win overlap : Rat) (hst : Spans st t1 t2) (hw : 0 < win)
    (ho : overlap < 1) (hl : win + win * (1 - overlap) / 1000000 < t2 - t1) :
    ∃ starts, windowStarts st win overlap = .ok starts ∧ 2 ≤ starts.length ∧
      starts.head? = some t1 ∧ starts.getLast? = some (t2 - win) ∧
      (∃ step, 0 < step ∧ step ≤ win * (1 - overlap) * (1 + 1 / 1000000) ∧
        ∀ i (h : i < starts.length), starts[i] = t1 + i * step) ∧
      ∀ m : Nat, 2 ≤ m → m < starts.length → win * (1 - overlap) < (t2 - win - t1) / (m - 1) := by
  obtain ⟨k, hk1, hn, hlo, hhi⟩ := numWindows_long hw ho hl
  have hp : 0 < win * (1 - overlap) := mul_pos hw (by linarith)
  have hkr : (1 : Rat) ≤ (k : Rat) := by exact_mod_cast hk1
  have hk0 : (0 : Rat) < (k : Rat) := by linarith
  have hks : (((k + 1 : Nat) : Rat)) - 1 = (k : Rat) := by push_cast; ring
  refine ⟨_, by rw [windowStarts_spans hst, if_neg hp.ne', hn, if_neg (by omega)], ?_, ?_, ?_, ?_, ?_⟩
  · simp only [List.length_map, List.length_range]; omega
  · simp [List.head?_range]
  · rw [List.getLast?_map, List.getLast?_range, if_neg (by omega)]
    simp only [Option.map_some, hks]
    congr 1
    have : k + 1 - 1 = k := by omega
    rw [this]
    field_simp
    ring
  · refine ⟨(t2 - t1 - win) / k, ?_, ?_, ?_⟩
    · apply div_pos _ hk0
      nlinarith [mul_nonneg (sub_nonneg.mpr hkr) hp.le]
    · rw [div_le_iff₀ hk0]
      nlinarith [mul_nonneg (sub_nonneg.mpr hkr) hp.le]
    · intro i hi
      simp only [List.getElem_map, List.getElem_range, hks]
      ring
  · intro m hm hmlt
    simp only [List.length_map, List.length_range] at hmlt
    have hm1 : (0 : Rat) < (m : Rat) - 1 := by
      have : (2 : Rat) ≤ m := by exact_mod_cast hm
      linarith
    rw [lt_div_iff₀ hm1]
    have hmk : (m : Rat) ≤ k := by exact_mod_cast (by omega : m ≤ k)
    nlinarith

/-- Every sample of every trace that lies between the start of the data and a microsecond before their end is in a window, if
windows are not further apart than they are long. -/
theorem C50_covered (st : List WTrace) (t1 t2 win overlap : Rat) (hst : Spans st t1 t2) (hw : 0 < win)
    (ho : 1 / 1000000 ≤ overlap) (ho1 : overlap < 1) (hl : win + win * (1 - overlap) / 1000000 < t2 - t1)
    (tr : WTrace) (htr : tr ∈ st) (s : Rat × Rat) (hs : s ∈ tr.samples) (h1 : t1 ≤ s.1) (h2 : s.1 ≤ t2 - 1 / 1000000) :
    ∃ starts, windowStarts st win overlap = .ok starts ∧
      ∃ x ∈ starts, ∃ tr' ∈ windowData st win x, tr'.id = tr.id ∧ s ∈ tr'.samples := by
  obtain ⟨starts, hok, hlen, hhead, hlast, ⟨step, hsp, hsl, heq⟩, -⟩ := C50_windows_partial st t1 t2 win overlap hst hw ho1 hl
  refine ⟨starts, hok, ?_⟩
  have hstep : step ≤ win := by
    have : win * (1 - overlap) * (1 + 1 / 1000000) ≤ win * 1 := by
      rw [mul_assoc]
      apply mul_le_mul_of_nonneg_left _ hw.le
      nlinarith
    linarith
  -- the last window that starts, less a microsecond, at or before the sample
  have key : ∃ x ∈ starts, x - 1 / 1000000 ≤ s.1 ∧ s.1 ≤ x + win - 1 / 1000000 := by
    by_contra hno
    push Not at hno
    have hall : ∀ i (h : i < starts.length), starts[i] - 1 / 1000000 ≤ s.1 := by
      intro i
      induction i with
      | zero =>
        intro h
        have := heq 0 h
        simp at this
        linarith
      | succ i ih =>
        intro h
        have ih' := ih (by omega)
        have := hno _ (List.getElem_mem (by omega : i < starts.length)) ih'
        have e1 := heq i (by omega)
        have e2 := heq (i + 1) h
        have : starts[i + 1] = starts[i] + step := by
          rw [e1, e2]; push_cast; ring
        linarith
    have hl2 : starts[starts.length - 1]'(by omega) = t2 - win := by
      have := List.getLast?_eq_getElem? (l := starts)
      rw [hlast, List.getElem?_eq_getElem (by omega)] at this
      exact (Option.some.inj this).symm
    have := hno _ (List.getElem_mem (by omega : starts.length - 1 < starts.length)) (hall _ (by omega))
    rw [hl2] at this
    linarith
  obtain ⟨x, hx, hlo, hhi⟩ := key
  refine ⟨x, hx, ⟨tr.id, tr.samples.filter fun s => decide (x - 1 / 1000000 ≤ s.1) && decide (s.1 ≤ x + win - 1 / 1000000)⟩, ?_, rfl,
    ?_⟩
  · unfold windowData sliceWaves
    refine List.mem_filter.mpr ⟨List.mem_map.mpr ⟨tr, htr, rfl⟩, ?_⟩
    have : s ∈ tr.samples.filter fun s => decide (x - 1 / 1000000 ≤ s.1) && decide (s.1 ≤ x + win - 1 / 1000000) :=
      List.mem_filter.mpr ⟨hs, by simp only [hlo, hhi, decide_true, Bool.and_self]⟩
    cases hf : tr.samples.filter (fun s => decide (x - 1 / 1000000 ≤ s.1) && decide (s.1 ≤ x + win - 1 / 1000000)) with
    | nil => rw [hf] at this; exact absurd this (List.not_mem_nil)
    | cons a l => simp
  · exact List.mem_filter.mpr ⟨hs, by simp only [hlo, hhi, decide_true, Bool.and_self]⟩

/-- C50 is violated: whatever the parameters, no sample at the end of the data, or later, is in any window. -/
theorem C50_violated_last (st : List WTrace) (t1 t2 win overlap : Rat) (hst : Spans st t1 t2) (hw : 0 < win) (ho : overlap < 1)
    (hl : win + win * (1 - overlap) / 1000000 < t2 - t1) (starts : List Rat) (hok : windowStarts st win overlap = .ok starts)
    (x : Rat) (hx : x ∈ starts) : ∀ tr ∈ windowData st win x, ∀ s ∈ tr.samples, s.1 < t2 := by
  obtain ⟨starts', hok', hlen, hhead, hlast, ⟨step, hsp, hsl, heq⟩, -⟩ := C50_windows_partial st t1 t2 win overlap hst hw ho hl
  rw [hok] at hok'
  obtain rfl : starts = starts' := by injection hok'
  have hxle : x ≤ t2 - win := by
    obtain ⟨i, hi, rfl⟩ := List.getElem_of_mem hx
    have hl2 : starts[starts.length - 1]'(by omega) = t2 - win := by
      have := List.getLast?_eq_getElem? (l := starts)
      rw [hlast, List.getElem?_eq_getElem (by omega)] at this
      exact (Option.some.inj this).symm
    rw [← hl2, heq i hi, heq _ (by omega)]
    have : (i : Rat) ≤ ((starts.length - 1 : Nat) : Rat) := by exact_mod_cast (by omega : i ≤ starts.length - 1)
    nlinarith
  intro tr htr s hs
  unfold windowData sliceWaves at htr
  obtain ⟨tr0, h0, rfl⟩ := List.mem_map.mp (List.mem_filter.mp htr).1
  have := (List.mem_filter.mp hs).2
  simp only [Bool.and_eq_true, decide_eq_true_eq] at this
  linarith [this.2]

/-- C50 is violated: data exactly one window long are not analysed, but raise ZeroDivisionError. So are data a little longer (less
than a millionth of the step), or shorter by less than a step. -/
theorem C50_violated_one {V : Type} (f : List WTrace → Except Exc (List (List Nat × V))) (st : List WTrace)
    (t1 t2 win overlap : Rat) (hst : Spans st t1 t2) (hw : 0 < win) (ho : overlap < 1)
    (hlo : win - win * (1 - overlap) * (1 - 1 / 1000000) < t2 - t1) (hhi : t2 - t1 ≤ win + win * (1 - overlap) / 1000000) :
    applyWindows f st win overlap = .error .other := by
  have hp : 0 < win * (1 - overlap) := mul_pos hw (by linarith)
  have : numWindows (t2 - t1) win overlap = 1 := by
    have hc : ⌈(t2 - t1 - win) / (win * (1 - overlap)) - 1 / 1000000⌉ = 0 := by
      rw [Int.ceil_eq_zero_iff]
      constructor
      · have : -1 + 1 / 1000000 < (t2 - t1 - win) / (win * (1 - overlap)) := by
          rw [lt_div_iff₀ hp]; linarith
        linarith
      · have : (t2 - t1 - win) / (win * (1 - overlap)) ≤ 1 / 1000000 := by
          rw [div_le_iff₀ hp]; linarith
        linarith
    unfold numWindows
    rw [hc]
    rfl
  unfold applyWindows
  rw [windowStarts_spans hst, if_neg hp.ne', if_pos this]

/-- C50 is violated: still shorter data are not analysed at all; the result is empty, without an error. -/
theorem C50_violated_short {V : Type} (f : List WTrace → Except Exc (List (List Nat × V))) (st : List WTrace)
    (t1 t2 win overlap : Rat) (hst : Spans st t1 t2) (hw : 0 < win) (ho : overlap < 1)
    (hlo : t2 - t1 ≤ win - win * (1 - overlap) * (1 - 1 / 1000000)) :
    applyWindows f st win overlap = .ok [(bytes "t_mid", [])] := by
  have hp : 0 < win * (1 - overlap) := mul_pos hw (by linarith)
  have : numWindows (t2 - t1) win overlap = 0 := by
    have hc : ⌈(t2 - t1 - win) / (win * (1 - overlap)) - 1 / 1000000⌉ ≤ -1 := by
      rw [Int.ceil_le]
      have : (t2 - t1 - win) / (win * (1 - overlap)) ≤ -1 + 1 / 1000000 := by
        rw [div_le_iff₀ hp]; linarith
      push_cast
      linarith
    unfold numWindows
    omega
  unfold applyWindows
  rw [windowStarts_spans hst, if_neg hp.ne', this]
  rfl

/-! ### Example: 12 s of data, one sample per second, windows of 5 s, half overlapping -/

def demoWave : List WTrace := [⟨bytes "XP.A..HDF", (List.range 13).map fun i : Nat => ((i : Rat), (i * i : Rat))⟩]

theorem demoWave_spans : Spans demoWave 0 12 := ⟨_, [], (0, 0), (12, 144), rfl, by decide +kernel, rfl, by decide +kernel, rfl⟩

example : windowStarts demoWave 5 (1 / 2) = .ok [0, 7 / 3, 14 / 3, 7] := by decide +kernel

example : (0 : Rat) < 5 ∧ (1 / 2 : Rat) < 1 ∧ (5 : Rat) + 5 * (1 - 1 / 2) / 1000000 < 12 - 0 := by norm_num

-- the last window has the samples from 7 s to 11 s: that of 12 s is left out
example : (windowData demoWave 5 7).map (fun tr => tr.samples.map Prod.fst) = [[7, 8, 9, 10, 11]] := by decide +kernel

-- a window as long as the data
example : (12 : Rat) - 12 * (1 - 1 / 2) * (1 - 1 / 1000000) < 12 - 0 ∧ (12 : Rat) - 0 ≤ 12 + 12 * (1 - 1 / 2) / 1000000 := by norm_num

/-! ## C51 -/

/-- The entry of a column for a window with results `w`. -/
def cellOf {V : Type} (key : List Nat) (w : List (List Nat × V)) : WCell V :=
  match w.lookup key with
  | some v => .val v
  | none => .nan

theorem lookup_mapSnd {V : Type} (g : List Nat → List (WCell V) → List (WCell V)) (key : List Nat) :
    ∀ t : WTable V, (t.map fun p => (p.1, g p.1 p.2)).lookup key = (t.lookup key).map (g key)
  | [] => rfl
  | (k, l) :: t => by
    simp only [List.map_cons, List.lookup_cons]
    by_cases h : key = k
    · subst h; simp
    · rw [beq_eq_false_iff_ne.mpr h]; exact lookup_mapSnd g key t

theorem lookup_appendCell {V : Type} (k key : List Nat) (c : WCell V) (t : WTable V) :
    (appendCell k c t).lookup key = (t.lookup key).map fun l => if key = k then l ++ [c] else l := by
  have : appendCell k c t = t.map fun p => (p.1, (fun a l => if a = k then l ++ [c] else l) p.1 p.2) := by
    unfold appendCell
    apply List.map_congr_left
    intro p _
    obtain ⟨a, l⟩ := p
    by_cases h : a = k <;> simp [h]
  rw [this]
  exact lookup_mapSnd (fun a l => if a = k then l ++ [c] else l) key t

theorem lookup_fillMissing {V : Type} (w : List (List Nat × V)) (key : List Nat) (t : WTable V) :
    (fillMissing w t).lookup key =
      (t.lookup key).map fun l => if key ∈ w.map Prod.fst ∨ key = bytes "t_mid" then l else l ++ [WCell.nan] := by
  have : fillMissing w t =
      t.map fun p => (p.1, (fun a l => if a ∈ w.map Prod.fst ∨ a = bytes "t_mid" then l else l ++ [WCell.nan]) p.1 p.2) := by
    unfold fillMissing
    apply List.map_congr_left
    intro p _
    obtain ⟨a, l⟩ := p
    by_cases h1 : a ∈ w.map Prod.fst
    · have : (w.map Prod.fst).contains a = true := by simpa using h1
      simp only [this, h1, Bool.true_or, if_true, true_or]
    · by_cases h2 : a = bytes "t_mid" <;> simp [h1, h2]
  rw [this]
  exact lookup_mapSnd (fun a l => if a ∈ w.map Prod.fst ∨ a = bytes "t_mid" then l else l ++ [WCell.nan]) key t

theorem lookup_none_iff {α : Type} (key : List Nat) : ∀ t : List (List Nat × α), t.lookup key = none ↔ key ∉ t.map Prod.fst
  | [] => by simp
  | (k, l) :: t => by
    rw [List.lookup_cons]
    by_cases h : key = k
    · subst h; simp
    · rw [beq_eq_false_iff_ne.mpr h]
      simp only [List.map_cons, List.mem_cons, h, false_or]
      exact lookup_none_iff key t

theorem lookup_append_one {V : Type} (key k : List Nat) (l : List (WCell V)) : ∀ t : WTable V,
    (t ++ [(k, l)]).lookup key = match t.lookup key with
      | some x => some x
      | none => if key = k then some l else none
  | [] => by
    simp only [List.nil_append, List.lookup_cons, List.lookup_nil]
    by_cases h : key = k
    · subst h; simp
    · rw [beq_eq_false_iff_ne.mpr h]; simp [h]
  | (a, x) :: t => by
    simp only [List.cons_append, List.lookup_cons]
    by_cases h : key = a
    · subst h; simp
    · rw [beq_eq_false_iff_ne.mpr h]; exact lookup_append_one key k l t

theorem lookup_putValue {V : Type} (i : Nat) (t : WTable V) (kv : List Nat × V) (key : List Nat) :
    (putValue i t kv).lookup key =
      if key = kv.1 then some ((t.lookup key).getD (List.replicate i .nan) ++ [.val kv.2]) else t.lookup key := by
  unfold putValue
  dsimp only
  rw [lookup_appendCell]
  by_cases hmem : kv.1 ∈ t.map Prod.fst
  · rw [if_pos (by simpa using hmem)]
    by_cases h : key = kv.1
    · rw [h]
      cases hl : t.lookup kv.1 with
      | none => exact absurd hmem ((lookup_none_iff _ _).mp hl)
      | some x => simp
    · simp only [h, if_false]
      cases t.lookup key <;> rfl
  · rw [if_neg (by simpa using hmem), lookup_append_one]
    by_cases h : key = kv.1
    · rw [h, (lookup_none_iff _ _).mpr hmem]
      simp
    · simp only [h, if_false]
      cases t.lookup key <;> rfl

theorem lookup_putValues {V : Type} (i : Nat) (key : List Nat) : ∀ (w : List (List Nat × V)) (t : WTable V),
    (w.map Prod.fst).Nodup → (w.foldl (putValue i) t).lookup key = match w.lookup key with
      | some v => some ((t.lookup key).getD (List.replicate i .nan) ++ [.val v])
      | none => t.lookup key
  | [], t, _ => rfl
  | (k, v) :: w, t, hnd => by
    rw [List.map_cons, List.nodup_cons] at hnd
    rw [List.foldl_cons, lookup_putValues i key w _ hnd.2, List.lookup_cons]
    by_cases h : key = k
    · subst h
      rw [(lookup_none_iff _ _).mpr hnd.1]
      simp only [beq_self_eq_true]
      rw [lookup_putValue, if_pos rfl]
    · rw [beq_eq_false_iff_ne.mpr h]
      rw [lookup_putValue, if_neg h]

/-- What the table holds after windows with the results `ws`, with middles `mids`. -/
def Holds {V : Type} (t : WTable V) (ws : List (List (List Nat × V))) (mids : List Rat) : Prop :=
  t.lookup (bytes "t_mid") = some (mids.map WCell.time) ∧
  ∀ key, key ≠ bytes "t_mid" →
    t.lookup key = if ∃ w ∈ ws, key ∈ w.map Prod.fst then some (ws.map (cellOf key)) else none

theorem cellOf_absent {V : Type} {key : List Nat} {w : List (List Nat × V)} (h : key ∉ w.map Prod.fst) : cellOf key w = .nan := by
  unfold cellOf
  rw [(lookup_none_iff _ _).mpr h]

theorem putWindow_holds {V : Type} {t : WTable V} {ws : List (List (List Nat × V))} {mids : List Rat} (h : Holds t ws mids)
    (w : List (List Nat × V)) (mid : Rat) (hnd : (w.map Prod.fst).Nodup) (ht : bytes "t_mid" ∉ w.map Prod.fst) :
    Holds (putWindow ws.length t w mid) (ws ++ [w]) (mids ++ [mid]) := by
  constructor
  · unfold putWindow
    rw [lookup_appendCell, lookup_fillMissing, lookup_putValues _ _ _ _ hnd, (lookup_none_iff _ _).mpr ht]
    simp only [h.1, Option.map_some, if_true, or_true, List.map_append, List.map_cons, List.map_nil]
  · intro key hk
    unfold putWindow
    rw [lookup_appendCell, lookup_fillMissing, lookup_putValues _ _ _ _ hnd, h.2 key hk]
    simp only [hk, if_false, or_false]
    have hrep : (¬ ∃ w ∈ ws, key ∈ w.map Prod.fst) → ws.map (cellOf key) = List.replicate ws.length (WCell.nan (V := V)) := by
      intro hno
      rw [List.eq_replicate_iff]
      refine ⟨by simp, ?_⟩
      intro c hc
      obtain ⟨w', hw', rfl⟩ := List.mem_map.mp hc
      exact cellOf_absent (fun hm => hno ⟨w', hw', hm⟩)
    by_cases hmem : key ∈ w.map Prod.fst
    · cases hl : w.lookup key with
      | none => exact absurd hmem ((lookup_none_iff _ _).mp hl)
      | some v =>
        have hc : cellOf key w = .val v := by unfold cellOf; rw [hl]
        have hex : ∃ w' ∈ ws ++ [w], key ∈ w'.map Prod.fst := ⟨w, by simp, hmem⟩
        rw [if_pos hex, List.map_append, List.map_cons, List.map_nil, hc]
        by_cases hold : ∃ w ∈ ws, key ∈ w.map Prod.fst
        · simp only [if_pos hold, Option.getD_some, Option.map_some, if_pos hmem]
        · simp only [if_neg hold, Option.getD_none, Option.map_some, if_pos hmem]
          rw [hrep hold]
    · rw [(lookup_none_iff _ _).mpr hmem]
      simp only [if_neg hmem]
      by_cases hold : ∃ w ∈ ws, key ∈ w.map Prod.fst
      · have hex : ∃ w' ∈ ws ++ [w], key ∈ w'.map Prod.fst := by
          obtain ⟨w', hw', hm⟩ := hold
          exact ⟨w', by simp [hw'], hm⟩
        rw [if_pos hold, if_pos hex, List.map_append, List.map_cons, List.map_nil, cellOf_absent hmem]
        rfl
      · have hex : ¬ ∃ w' ∈ ws ++ [w], key ∈ w'.map Prod.fst := by
          rintro ⟨w', hw', hm⟩
          rcases List.mem_append.mp hw' with hw' | hw'
          · exact hold ⟨w', hw', hm⟩
          · obtain rfl := List.mem_singleton.mp hw'
            exact hmem hm
        rw [if_neg hold, if_neg hex]
        rfl

theorem windowLoop_holds {V : Type} (f : List WTrace → Except Exc (List (List Nat × V))) (st : List WTrace) (win : Rat) :
    ∀ (starts : List Rat) (t : WTable V) (ws : List (List (List Nat × V))) (mids : List Rat) (r : WTable V),
      (∀ s ∈ starts, ∀ w, f (windowData st win s) = .ok w → (w.map Prod.fst).Nodup ∧ bytes "t_mid" ∉ w.map Prod.fst) →
      Holds t ws mids → windowLoop f st win ws.length t starts = .ok r →
      ∃ ws', ws'.length = starts.length ∧ (∀ i (h : i < starts.length), ∃ w, ws'[i]? = some w ∧ f (windowData st win starts[i]) = .ok w) ∧
        Holds r (ws ++ ws') (mids ++ starts.map fun s => s + win / 2)
  | [], t, ws, mids, r, _, hh, hr => by
    simp only [windowLoop, Except.ok.injEq] at hr
    subst hr
    exact ⟨[], rfl, fun i h => absurd h (Nat.not_lt_zero i), by simpa using hh⟩
  | s :: rest, t, ws, mids, r, hf, hh, hr => by
    rw [windowLoop] at hr
    cases hfs : f (windowData st win s) with
    | error e => rw [hfs] at hr; exact absurd hr (by simp)
    | ok w =>
      rw [hfs] at hr
      dsimp only at hr
      obtain ⟨hnd, ht⟩ := hf s List.mem_cons_self _ hfs
      have hlen : ws.length + 1 = (ws ++ [w]).length := by simp
      rw [hlen] at hr
      obtain ⟨ws', hl, hall, hres⟩ := windowLoop_holds f st win rest _ (ws ++ [w]) (mids ++ [s + win / 2]) r
        (fun s hs => hf s (List.mem_cons_of_mem _ hs)) (putWindow_holds hh w _ hnd ht) hr
      refine ⟨w :: ws', by simp [hl], ?_, by simpa using hres⟩
      intro i hi
      cases i with
      | zero => exact ⟨w, rfl, hfs⟩
      | succ i => simpa using hall i (by simpa using hi)

/-- C51. Whatever results the analysis of each window has, every column of the result has one entry per window, in order: the
window's own value if it has one of that name, NaN if not; a column is there if and only if some window has a value for it; and the
column `t_mid` has the middles of the windows. Partial: the analysis must not itself use the name `t_mid` (see
`C51_violated_t_mid`). -/
theorem C51_aligned_partial {V : Type} (f : List WTrace → Except Exc (List (List Nat × V))) (st : List WTrace) (win overlap : Rat)
    (starts : List Rat) (r : WTable V) (hs : windowStarts st win overlap = .ok starts)
    (hf : ∀ s ∈ starts, ∀ w, f (windowData st win s) = .ok w → (w.map Prod.fst).Nodup ∧ bytes "t_mid" ∉ w.map Prod.fst)
    (hr : applyWindows f st win overlap = .ok r) :
    ∃ ws : List (List (List Nat × V)), ws.length = starts.length ∧
      (∀ i (h : i < starts.length), ∃ w, ws[i]? = some w ∧ f (windowData st win starts[i]) = .ok w) ∧
      r.col (bytes "t_mid") = some (starts.map fun s => .time (s + win / 2)) ∧
      ∀ key, key ≠ bytes "t_mid" →
        ((r.col key).isSome ↔ ∃ w ∈ ws, key ∈ w.map Prod.fst) ∧
        ∀ col, r.col key = some col → col.length = starts.length ∧
          ∀ (i : Nat) (w : List (List Nat × V)), ws[i]? = some w → col[i]? = some (match w.lookup key with
            | some v => .val v
            | none => .nan) := by
  unfold applyWindows at hr
  rw [hs] at hr
  dsimp only at hr
  have h0 : Holds (V := V) [(bytes "t_mid", [])] [] [] := by
    constructor
    · rfl
    · intro key hk
      rw [List.lookup_cons, beq_eq_false_iff_ne.mpr hk]
      simp
  obtain ⟨ws, hl, hall, hmid, hres⟩ := windowLoop_holds f st win starts _ [] [] r hf h0 hr
  simp only [List.nil_append] at hmid hres
  refine ⟨ws, hl, hall, ?_, ?_⟩
  · unfold WTable.col; rw [hmid, List.map_map]; rfl
  · intro key hk
    unfold WTable.col
    rw [hres key hk]
    by_cases hex : ∃ w ∈ ws, key ∈ w.map Prod.fst
    · rw [if_pos hex]
      refine ⟨by simpa using hex, ?_⟩
      intro col hcol
      obtain rfl : ws.map (cellOf key) = col := by injection hcol
      refine ⟨by simp [hl], ?_⟩
      intro i w hw
      rw [List.getElem?_map, hw]
      rfl
    · rw [if_neg hex]
      exact ⟨by simpa using hex, by simp⟩

/-- C51 is violated: if an analysis returns a value named `t_mid`, that column gets two entries per window. -/
theorem C51_violated_t_mid {V : Type} (f : List WTrace → Except Exc (List (List Nat × V))) (st : List WTrace) (win overlap : Rat)
    (g : List WTrace → V) (hf : ∀ d, f d = .ok [(bytes "t_mid", g d)]) (starts : List Rat)
    (hs : windowStarts st win overlap = .ok starts) :
    ∃ r col, applyWindows f st win overlap = .ok r ∧ r.col (bytes "t_mid") = some col ∧ col.length = 2 * starts.length := by
  have loop : ∀ (starts : List Rat) (i : Nat) (col : List (WCell V)),
      ∃ col', windowLoop f st win i [(bytes "t_mid", col)] starts = .ok [(bytes "t_mid", col')] ∧
        col'.length = col.length + 2 * starts.length := by
    intro starts
    induction starts with
    | nil => intro i col; exact ⟨col, rfl, by simp⟩
    | cons s rest ih =>
      intro i col
      obtain ⟨col', h1, h2⟩ := ih (i + 1) (col ++ [.val (g (windowData st win s)), .time (s + win / 2)])
      refine ⟨col', ?_, by rw [h2]; simp; omega⟩
      rw [windowLoop, hf]
      dsimp only
      rw [← h1]
      congr 1
      simp [putWindow, putValue, fillMissing, appendCell]
  obtain ⟨col, h1, h2⟩ := loop starts 0 []
  refine ⟨_, col, by unfold applyWindows; rw [hs]; exact h1, ?_, by simpa using h2⟩
  unfold WTable.col
  simp

/-! ### Example: the number of samples; and, in windows that have a sample above 100, the largest -/

def demoAnalysis (d : List WTrace) : Except Exc (List (List Nat × Rat)) :=
  let v := d.flatMap fun tr => tr.samples.map Prod.snd
  .ok ((bytes "n", (v.length : Rat)) :: if v.any (fun x => decide (100 < x)) then [(bytes "max", v.foldl max 0)] else [])

example : ∀ d w, demoAnalysis d = .ok w → (w.map Prod.fst).Nodup ∧ bytes "t_mid" ∉ w.map Prod.fst := by
  intro d w h
  unfold demoAnalysis at h
  simp only [Except.ok.injEq] at h
  subst h
  split <;> (simp only [List.map_cons, List.map_nil]; decide)

example : applyWindows demoAnalysis demoWave 5 (1 / 2) = .ok
    [(bytes "t_mid", [.time (5 / 2), .time (29 / 6), .time (43 / 6), .time (19 / 2)]),
      (bytes "n", [.val 5, .val 5, .val 5, .val 5]),
      (bytes "max", [.nan, .nan, .nan, .val 121])] := by decide +kernel

end Gemlog
