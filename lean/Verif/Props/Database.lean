import Verif.Model.Database
import Verif.Props.Cli
import Verif.Props.Inventory
import Verif.Props.Outliers
import Verif.Lemmas.Stream
import Mathlib.Data.List.Sort

/-!
# C84, C85: the database of converted files and its statistics
-/

namespace Gemlog

/-! ## Specification -/

/-- The row describes the trace: names, amplitude, first and last sample time, greatest and least sample. -/
structure DbRow.Describes (env : DbEnv) (r : DbRow) (tr : DbTrace) : Prop where
  station : r.station = tr.station
  location : r.location = tr.location
  amp : r.amp = env.amp tr.trace.data
  first : r.t1 = tr.trace.start
  last : r.t2 = tr.trace.start + tr.trace.data.length - 1
  max : r.max ∈ tr.trace.data ∧ ∀ x ∈ tr.trace.data, x ≤ r.max
  min : r.min ∈ tr.trace.data ∧ ∀ x ∈ tr.trace.data, r.min ≤ x

/-- The traces in a file: none if it cannot be read. -/
def DbEnv.traces (env : DbEnv) (file : List Nat) : List DbTrace := (env.read file).getD []

/-! ## Sorting and extremes -/

theorem insertName_perm (a : List Nat) (l : List (List Nat)) : (insertName a l).Perm (a :: l) := by
  induction l with
  | nil => exact List.Perm.refl _
  | cons b l ih =>
    unfold insertName
    split_ifs
    · exact (ih.cons b).trans (List.Perm.swap a b l)
    · exact List.Perm.refl _

theorem sortNames_perm (l : List (List Nat)) : (sortNames l).Perm l := by
  induction l with
  | nil => exact List.Perm.refl _
  | cons a l ih => exact (insertName_perm a _).trans (ih.cons a)

theorem insertName_sorted (a : List Nat) : ∀ l : List (List Nat), l.Pairwise (· ≤ ·) → (insertName a l).Pairwise (· ≤ ·)
  | [], _ => List.pairwise_singleton _ _
  | b :: l, h => by
    have h' := List.pairwise_cons.mp h
    unfold insertName
    split_ifs with hc
    · rw [strLt_iff] at hc
      refine List.pairwise_cons.mpr ⟨?_, insertName_sorted a l h'.2⟩
      intro x hx
      rcases List.mem_cons.mp ((insertName_perm a l).mem_iff.mp hx) with h1 | h1
      · rw [h1]; exact le_of_lt hc
      · exact h'.1 x h1
    · rw [strLt_iff] at hc
      have hab : a ≤ b := not_lt.mp hc
      refine List.pairwise_cons.mpr ⟨?_, h⟩
      intro x hx
      rcases List.mem_cons.mp hx with h1 | h1
      · rw [h1]; exact hab
      · exact le_trans hab (h'.1 x h1)

theorem sortNames_sorted (l : List (List Nat)) : (sortNames l).Pairwise (· ≤ ·) := by
  induction l with
  | nil => exact List.Pairwise.nil
  | cons a l ih => exact insertName_sorted a _ ih

theorem foldlMax_spec (l : List Int) : ∀ x : Int, l.foldl Max.max x ∈ x :: l ∧ ∀ y ∈ x :: l, y ≤ l.foldl Max.max x := by
  induction l with
  | nil => intro x; simp
  | cons a l ih =>
    intro x
    obtain ⟨h1, h2⟩ := ih (max x a)
    rw [List.foldl_cons]
    constructor
    · rcases List.mem_cons.mp h1 with h | h
      · rw [h]
        rcases max_choice x a with h' | h' <;> rw [h'] <;> simp
      · simp [h]
    · intro y hy
      have h3 := h2 (max x a) (by simp)
      rcases List.mem_cons.mp hy with h | h
      · rw [h]; exact le_trans (le_max_left _ _) h3
      · rcases List.mem_cons.mp h with h | h
        · rw [h]; exact le_trans (le_max_right _ _) h3
        · exact h2 y (by simp [h])

theorem foldlMin_spec (l : List Int) : ∀ x : Int, l.foldl Min.min x ∈ x :: l ∧ ∀ y ∈ x :: l, l.foldl Min.min x ≤ y := by
  induction l with
  | nil => intro x; simp
  | cons a l ih =>
    intro x
    obtain ⟨h1, h2⟩ := ih (min x a)
    rw [List.foldl_cons]
    constructor
    · rcases List.mem_cons.mp h1 with h | h
      · rw [h]
        rcases min_choice x a with h' | h' <;> rw [h'] <;> simp
      · simp [h]
    · intro y hy
      have h3 := h2 (min x a) (by simp)
      rcases List.mem_cons.mp hy with h | h
      · rw [h]; exact le_trans h3 (min_le_left _ _)
      · rcases List.mem_cons.mp h with h | h
        · rw [h]; exact le_trans h3 (min_le_right _ _)
        · exact h2 y (by simp [h])

theorem dbRow_describes (env : DbEnv) (file : List Nat) (tr : DbTrace) (x : Int) (l : List Int) (h : tr.trace.data = x :: l) :
    (dbRow env file tr x l).Describes env tr := by
  refine ⟨rfl, rfl, rfl, rfl, ?_, ?_, ?_⟩
  · show tr.trace.stop = _
    rw [stop_of_ne (by simp [h])]
  · rw [h]; exact foldlMax_spec l x
  · rw [h]; exact foldlMin_spec l x

/-! ## C84 -/

theorem makeDbLoop_spec (env : DbEnv) (files : List (List Nat)) (h : ∀ f ∈ files, ∀ tr ∈ (env.traces f).head?, tr.trace.data ≠ []) :
    ∃ rows, makeDbLoop env files = .ok rows ∧ rows.map DbRow.filename = files.filter (fun f => env.traces f ≠ []) ∧
      ∀ r ∈ rows, ∃ tr, (env.traces r.filename).head? = some tr ∧ r.Describes env tr := by
  induction files with
  | nil => exact ⟨[], rfl, rfl, by simp⟩
  | cons f files ih =>
    obtain ⟨rows, h1, h2, h3⟩ := ih fun g hg => h g (by simp [hg])
    have hf := h f (by simp)
    unfold DbEnv.traces at hf
    rw [makeDbLoop]
    cases hr : env.read f with
    | none =>
      have ht : env.traces f = [] := by simp [DbEnv.traces, hr]
      exact ⟨rows, h1, by rw [h2, List.filter_cons_of_neg (by simp [ht])], h3⟩
    | some trs =>
      cases trs with
      | nil =>
        have ht : env.traces f = [] := by simp [DbEnv.traces, hr]
        exact ⟨rows, h1, by rw [h2, List.filter_cons_of_neg (by simp [ht])], h3⟩
      | cons tr trs =>
        have ht : env.traces f = tr :: trs := by simp [DbEnv.traces, hr]
        rw [hr] at hf
        cases hd : tr.trace.data with
        | nil => exact absurd hd (hf tr rfl)
        | cons x l =>
          refine ⟨dbRow env f tr x l :: rows, by simp only [hd, h1]; rfl, ?_, ?_⟩
          · rw [List.map_cons, h2, List.filter_cons_of_pos (by simp [ht])]
            rfl
          · intro r hr'
            rcases List.mem_cons.mp hr' with h' | h'
            · rw [h']
              exact ⟨tr, by show (env.traces f).head? = _; rw [ht]; rfl, dbRow_describes env f tr x l hd⟩
            · exact h3 r h'

/-- `make_db` lists exactly the matching files that can be read, each once, in the order of their names, and each row describes the first
trace of its file (no trace in a file is empty). Missing: the other traces of a file (`C84_violated_gaps`), and that no file can be read (`C84_violated_empty`). -/
theorem C84_rows_partial (env : DbEnv) (files : List (List Nat)) (hnd : files.Nodup)
    (h : ∀ f ∈ files, ∀ tr ∈ env.traces f, tr.trace.data ≠ []) (hsome : ∃ f ∈ files, env.traces f ≠ []) :
    ∃ rows, makeDb env files = .ok rows ∧ (rows.map DbRow.filename).Pairwise (· < ·) ∧
      (∀ f, f ∈ rows.map DbRow.filename ↔ f ∈ files ∧ env.traces f ≠ []) ∧
      ∀ r ∈ rows, ∃ tr, (env.traces r.filename).head? = some tr ∧ r.Describes env tr := by
  have hp := sortNames_perm files
  obtain ⟨rows, h1, h2, h3⟩ := makeDbLoop_spec env (sortNames files) fun f hf tr htr =>
    h f (hp.mem_iff.mp hf) tr (List.mem_of_head? htr)
  obtain ⟨f, hf, hne⟩ := hsome
  have hmem : ∀ f, f ∈ rows.map DbRow.filename ↔ f ∈ files ∧ env.traces f ≠ [] := by
    intro f
    rw [h2, List.mem_filter, hp.mem_iff]
    simp
  refine ⟨rows, ?_, ?_, hmem, h3⟩
  · unfold makeDb
    rw [h1]
    cases rows with
    | nil => exact absurd ((hmem f).mpr ⟨hf, hne⟩) (by simp)
    | cons r rows => rfl
  · rw [h2]
    apply List.Pairwise.filter
    have h4 := sortNames_sorted files
    have h5 : (sortNames files).Nodup := hp.nodup_iff.mpr hnd
    exact (h4.and h5).imp fun h => lt_of_le_of_ne h.1 h.2

/-- Every trace of a file with a single trace is described; so for files with one trace each the database is complete. -/
theorem C84_complete (env : DbEnv) (files : List (List Nat)) (hnd : files.Nodup)
    (h : ∀ f ∈ files, ∀ tr ∈ env.traces f, tr.trace.data ≠ []) (hone : ∀ f ∈ files, (env.traces f).length ≤ 1) (rows : List DbRow)
    (hr : makeDb env files = .ok rows) (f : List Nat) (hf : f ∈ files) (tr : DbTrace) (htr : tr ∈ env.traces f) :
    ∃ r ∈ rows, r.filename = f ∧ r.Describes env tr := by
  obtain ⟨rows', h1, _, h3, h4⟩ := C84_rows_partial env files hnd h ⟨f, hf, List.ne_nil_of_mem htr⟩
  rw [h1] at hr
  obtain rfl : rows' = rows := by simpa using hr
  obtain ⟨r, hr1, hr2⟩ := List.mem_map.mp ((h3 f).mpr ⟨hf, List.ne_nil_of_mem htr⟩)
  obtain ⟨tr', ht1, ht2⟩ := h4 r hr1
  refine ⟨r, hr1, hr2, ?_⟩
  rw [hr2] at ht1
  have := hone f hf
  cases htt : env.traces f with
  | nil => rw [htt] at htr; simp at htr
  | cons a l =>
    rw [htt] at ht1 htr this
    have hl : l = [] := by
      rw [List.length_cons] at this
      exact List.length_eq_zero_iff.mp (by omega)
    rw [hl] at htr
    simp only [List.head?_cons, Option.some.injEq] at ht1
    rw [List.mem_singleton.mp htr, ht1]
    exact ht2

/-- Violated: of a file with several traces (a gap within the hour, or several stations) only the first is counted; the times, extremes
and amplitude of the row say nothing of the others. -/
theorem C84_violated_gaps (env env' : DbEnv) (files : List (List Nat)) (hamp : env.amp = env'.amp)
    (h : ∀ f, (env.traces f).head? = (env'.traces f).head?) : makeDb env files = makeDb env' files := by
  have key : ∀ l : List (List Nat), makeDbLoop env l = makeDbLoop env' l := by
    intro l
    induction l with
    | nil => rfl
    | cons f l ih =>
      have hf := h f
      unfold DbEnv.traces at hf
      rw [makeDbLoop, makeDbLoop, ih]
      have hrow : dbRow env = dbRow env' := by
        funext a b c d
        unfold dbRow
        rw [hamp]
      rw [hrow]
      cases h1 : env.read f with
      | none =>
        cases h2 : env'.read f with
        | none => rfl
        | some y =>
          cases y with
          | nil => rfl
          | cons b y => rw [h1, h2] at hf; simp at hf
      | some x =>
        cases x with
        | nil =>
          cases h2 : env'.read f with
          | none => rfl
          | some y =>
            cases y with
            | nil => rfl
            | cons b y => rw [h1, h2] at hf; simp at hf
        | cons a x =>
          cases h2 : env'.read f with
          | none => rw [h1, h2] at hf; simp at hf
          | some y =>
            cases y with
            | nil => rw [h1, h2] at hf; simp at hf
            | cons b y =>
              rw [h1, h2] at hf
              simp only [Option.getD_some, List.head?_cons, Option.some.injEq] at hf
              rw [hf]
  unfold makeDb
  rw [key]

/-- Violated: if no file can be read, there is an exception, not an empty database. -/
theorem C84_violated_empty (env : DbEnv) (files : List (List Nat)) (h : ∀ f ∈ files, env.traces f = []) : makeDb env files = .error .other := by
  obtain ⟨rows, h1, h2, _⟩ := makeDbLoop_spec env (sortNames files) fun f hf tr htr => by
    rw [h f ((sortNames_perm files).mem_iff.mp hf)] at htr
    simp at htr
  have : rows = [] := by
    have : rows.map DbRow.filename = [] := by
      rw [h2, List.filter_eq_nil_iff]
      intro f hf
      simp [h f ((sortNames_perm files).mem_iff.mp hf)]
    simpa using this
  unfold makeDb
  rw [h1, this]

/-- Two files in a directory, one of them with two traces, and one that cannot be read. -/
def demoDb : DbEnv where
  read f :=
    if f = bytes "b" then some [⟨bytes "077", [], ⟨0, [3, -5, 4]⟩⟩]
    else if f = bytes "a" then some [⟨bytes "076", [], ⟨0, [1, 2]⟩⟩, ⟨bytes "076", [], ⟨10, [9]⟩⟩]
    else none
  amp l := l.length

theorem demoDb_rows : (makeDb demoDb [bytes "b", bytes "c", bytes "a"]).toOption = some
    [⟨bytes "a", bytes "076", [], 2, 2, 1, 0, 1⟩, ⟨bytes "b", bytes "077", [], 3, 4, -5, 0, 2⟩] := by decide +kernel

example : ([bytes "b", bytes "c", bytes "a"] : List (List Nat)).Nodup ∧
    (∀ f ∈ [bytes "b", bytes "c", bytes "a"], ∀ tr ∈ demoDb.traces f, tr.trace.data ≠ []) ∧
    ∃ f ∈ [bytes "b", bytes "c", bytes "a"], demoDb.traces f ≠ [] := by decide +kernel

/-! ## C85 -/

theorem statsLoop_none (quantile : List Rat → Rat → Rat) (db : List DbRow) (t1 t2 : Int) :
    ∀ stas : List (List Nat), statsLoop quantile db t1 t2 none stas = .ok none ∨ statsLoop quantile db t1 t2 none stas = .error .other
  | [] => Or.inl rfl
  | sta :: stas => by
    rw [statsLoop]
    dsimp only
    by_cases hw : (db.filter fun r => decide (r.station = sta ∧ t1 < 10000 * r.t1 ∧ 10000 * r.t2 < t2)) = []
    · rw [if_pos hw]
      exact statsLoop_none quantile db t1 t2 stas
    · rw [if_neg hw]
      exact Or.inr rfl

/-- Violated: `calc_channel_stats` never returns a table. For every database and every interval it ends with an exception, because the
empty list it starts with is handed to `pd.concat`. -/
theorem C85_violated_always (quantile : List Rat → Rat → Rat) (db : List DbRow) (t1 t2 : Int) :
    calcChannelStats quantile db t1 t2 = .error .other := by
  unfold calcChannelStats
  rcases statsLoop_none quantile db t1 t2 (uniqueIn (db.map DbRow.station)) with h | h <;> rw [h]
  rfl

example : ∃ r : DbRow, r.good = true ∧ calcChannelStats (fun _ _ => 0) [r] (-1) 4000000000 = .error .other :=
  ⟨⟨bytes "a", bytes "076", [], 10, 5, -5, 0, 359999⟩, by decide +kernel, C85_violated_always _ _ _ _⟩

end Gemlog
