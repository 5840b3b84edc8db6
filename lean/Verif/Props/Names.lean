import Verif.Model.Names
import Verif.Props.Limits
import Mathlib.Data.List.Nodup
import Mathlib.Data.List.NodupEquivFin
import Mathlib.Data.List.Range

/-!
# C35 to C37: output file names, and repeating an interrupted conversion
-/

namespace Gemlog

/-! ## Numbers in names -/

theorem digitsVal_padNum (w n : Nat) : digitsVal (padNum w n) = n := by
  have hz : ∀ k : Nat, digitsVal (List.replicate k 48) = 0 := by
    intro k
    induction k with
    | zero => rfl
    | succ k ih =>
      rw [List.replicate_succ]
      have : digitsVal (48 :: List.replicate k 48) = digitsVal ([48] ++ List.replicate k 48) := rfl
      rw [this, digitsVal_append, ih]
      simp [digitsVal]
  unfold padNum zeroPad
  rw [digitsVal_append, hz, digitsVal_natStr]
  simp

theorem padNum_injective {w a b : Nat} (h : padNum w a = padNum w b) : a = b := by
  have := congrArg digitsVal h
  rwa [digitsVal_padNum, digitsVal_padNum] at this

theorem natStrAux_length : ∀ (k f n : Nat) (acc : List Nat), n < f → n < 10 ^ (k + 1) →
    (natStrAux f n acc).length ≤ acc.length + (k + 1) := by
  intro k
  induction k with
  | zero =>
    intro f n acc hf hn
    cases f with
    | zero => omega
    | succ f =>
      rw [natStrAux, if_pos (by simpa using hn)]
      simp
  | succ k ih =>
    intro f n acc hf hn
    cases f with
    | zero => omega
    | succ f =>
      rw [natStrAux]
      split_ifs with h
      · simp only [List.length_cons]; omega
      · have h1 : n / 10 < 10 ^ (k + 1) := by
          rw [Nat.div_lt_iff_lt_mul (by norm_num)]
          calc n < 10 ^ (k + 1 + 1) := hn
            _ = 10 ^ (k + 1) * 10 := by rw [pow_succ]
        have := ih f (n / 10) ((48 + n % 10) :: acc) (by omega) h1
        simp only [List.length_cons] at this
        omega

theorem padNum_length {k n : Nat} (h : n < 10 ^ (k + 1)) : (padNum (k + 1) n).length = k + 1 := by
  have h1 := natStrAux_length k (n + 1) n [] (by omega) h
  unfold padNum zeroPad natStr
  simp only [List.length_nil, List.length_append, List.length_replicate] at h1 ⊢
  omega

/-! ## C35 -/

theorem nameLoop_spec (existing : List (List Nat)) (name : Nat → List Nat) (hinj : ∀ a b, name a = name b → a = b) :
    ∀ (fuel n : Nat), existing.length < fuel + n → (∀ m < n, name m ∈ existing) →
      ∃ k, nameLoop existing name fuel n = some (name k) ∧ name k ∉ existing ∧ ∀ m < k, name m ∈ existing := by
  intro fuel
  induction fuel with
  | zero =>
    intro n h hm
    exfalso
    have hnd : ((List.range n).map name).Nodup := List.Nodup.map (fun a b => hinj a b) (List.nodup_range)
    have hsub : (List.range n).map name ⊆ existing := by
      intro x hx
      obtain ⟨m, h1, rfl⟩ := List.mem_map.mp hx
      exact hm m (List.mem_range.mp h1)
    have := (hnd.subperm hsub).length_le
    rw [List.length_map, List.length_range] at this
    omega
  | succ fuel ih =>
    intro n h hm
    rw [nameLoop]
    split_ifs with hc
    · apply ih (n + 1) (by omega)
      intro m hmn
      by_cases h' : m = n
      · rw [h']; exact hc
      · exact hm m (by omega)
    · exact ⟨n, rfl, hc, hm⟩

theorem indexedName_injective (dir sn ty : List Nat) (a b : Nat) (h : indexedName dir sn ty a = indexedName dir sn ty b) :
    a = b := by
  unfold indexedName at h
  have h1 := List.append_cancel_right h
  exact padNum_injective (List.append_cancel_left h1)

/-- **C35.** Whatever files exist, the name search ends, and the chosen file does not exist and has the smallest unused
index: the name is `dir/SNtype_nnn.txt` for some number `k`, all smaller numbers being taken. -/
theorem C35_fresh_smallest (existing : List (List Nat)) (dir sn ty : List Nat) :
    ∃ k, makeFilename existing dir sn ty = some (dir ++ bytes "/" ++ sn ++ ty ++ bytes "_" ++ padNum 3 k ++ bytes ".txt") ∧
      (dir ++ bytes "/" ++ sn ++ ty ++ bytes "_" ++ padNum 3 k ++ bytes ".txt") ∉ existing ∧
      ∀ m < k, (dir ++ bytes "/" ++ sn ++ ty ++ bytes "_" ++ padNum 3 m ++ bytes ".txt") ∈ existing :=
  nameLoop_spec existing (indexedName dir sn ty) (indexedName_injective dir sn ty) _ 0 (by omega) (by omega)

/-- **C35, number format.** The index is written with its decimal digits, with zeros in front up to three. -/
theorem C35_index_digits (k : Nat) : digitsVal (padNum 3 k) = k ∧ (∀ c ∈ padNum 3 k, 48 ≤ c ∧ c ≤ 57) ∧
    3 ≤ (padNum 3 k).length ∧ (k < 1000 → (padNum 3 k).length = 3) := by
  refine ⟨digitsVal_padNum 3 k, ?_, ?_, fun h => padNum_length (k := 2) (by simpa using h)⟩
  · intro c hc
    unfold padNum zeroPad at hc
    rcases List.mem_append.mp hc with h | h
    · rw [List.eq_of_mem_replicate h]; omega
    · exact isDigit_iff.mp (natStr_digits k c h)
  · unfold padNum zeroPad
    simp only [List.length_append, List.length_replicate]
    omega

/-- Index 1 is the first free one although 2 is taken. -/
example : makeFilename [bytes "metadata/012metadata_000.txt", bytes "metadata/012metadata_002.txt"] (bytes "metadata")
    (bytes "012") (bytes "metadata") = some (bytes "metadata/012metadata_001.txt") := by
  decide +kernel

/-! ## C36 -/

/-- A time that has a calendar date of the years 1 to 9999 (as `datetime` requires), in hundredths of a second. -/
def Datable (k : Int) : Prop := 1 ≤ (dateOfDay (k / 100 / 86400)).year ∧ (dateOfDay (k / 100 / 86400)).year ≤ 9999

theorem pad_cancel {k a b : Nat} {x y : List Nat} (ha : a < 10 ^ (k + 1)) (hb : b < 10 ^ (k + 1))
    (h : padNum (k + 1) a ++ x = padNum (k + 1) b ++ y) : a = b ∧ x = y := by
  have := List.append_inj h (by rw [padNum_length ha, padNum_length hb])
  exact ⟨padNum_injective this.1, this.2⟩

/-- Names are the same only for starts in the same second and the same rest. -/
theorem convertedName_split {id id' fmt fmt' : List Nat} {a b : Int} (ha : Datable a) (hb : Datable b)
    (h : convertedName id fmt a = convertedName id' fmt' b) :
    a / 100 = b / 100 ∧ id ++ (bytes "." ++ lower fmt) = id' ++ (bytes "." ++ lower fmt') := by
  unfold convertedName at h
  simp only [List.append_assoc] at h
  obtain ⟨a1, a2, a3, a4, a5, _⟩ := dateOfDay_spec (a / 100 / 86400)
  obtain ⟨b1, b2, b3, b4, b5, _⟩ := dateOfDay_spec (b / 100 / 86400)
  have ma := monthLen_pos (dateOfDay (a / 100 / 86400)).year (dateOfDay (a / 100 / 86400)).month
  have mb := monthLen_pos (dateOfDay (b / 100 / 86400)).year (dateOfDay (b / 100 / 86400)).month
  obtain ⟨ha1, ha2⟩ := ha
  obtain ⟨hb1, hb2⟩ := hb
  obtain ⟨e1, h⟩ := pad_cancel (k := 3) (by omega) (by omega) h
  have h := List.append_cancel_left h
  obtain ⟨e2, h⟩ := pad_cancel (k := 1) (by omega) (by omega) h
  have h := List.append_cancel_left h
  obtain ⟨e3, h⟩ := pad_cancel (k := 1) (by omega) (by omega) h
  have h := List.append_cancel_left h
  obtain ⟨e4, h⟩ := pad_cancel (k := 1) (by omega) (by omega) h
  have h := List.append_cancel_left h
  obtain ⟨e5, h⟩ := pad_cancel (k := 1) (by omega) (by omega) h
  have h := List.append_cancel_left h
  obtain ⟨e6, h⟩ := pad_cancel (k := 1) (by omega) (by omega) h
  have h := List.append_cancel_left h
  have ed : dateOfDay (a / 100 / 86400) = dateOfDay (b / 100 / 86400) := by
    have : ∀ c d : Date, c.year = d.year → c.month = d.month → c.day = d.day → c = d := by
      rintro ⟨_, _, _⟩ ⟨_, _, _⟩ h1 h2 h3
      simp only at h1 h2 h3
      rw [h1, h2, h3]
    apply this <;> omega
  have : a / 100 / 86400 = b / 100 / 86400 := by
    rw [← a5, ← b5, ed]
  exact ⟨by omega, h⟩

/-- Names are the same only for starts in the same second. -/
theorem convertedName_injective (id fmt : List Nat) {a b : Int} (ha : Datable a) (hb : Datable b)
    (h : convertedName id fmt a = convertedName id fmt b) : a / 100 = b / 100 := (convertedName_split ha hb h).1

/-- **C36, names.** With the same identifier and format, two segments get the same file name exactly if they start in
the same second of UTC time. Missing: different names for every two segments, which is false (`C36_violated`). -/
theorem C36_same_name_iff_partial (id fmt : List Nat) (a b : Int) (ha : Datable a) (hb : Datable b) :
    convertedName id fmt a = convertedName id fmt b ↔ a / 100 = b / 100 := by
  refine ⟨convertedName_injective id fmt ha hb, ?_⟩
  intro h
  unfold convertedName
  rw [h]

example : convertedName (bytes "XP.012..HDF") (bytes "MSEED") 160000000042 = bytes "2020-09-13T12_26_40.XP.012..HDF.mseed" ∧
    Datable 160000000042 := by
  unfold Datable
  decide +kernel

/-- **C36, violated.** A gap of 0.2 s within one second: the two segments of one conversion have the same name, and after
the conversion the first segment's samples are in no file. -/
theorem C36_violated : ∃ (j : Job) (s : CState), convertLoops j none 5 = .done s ∧
    s.w.out = [⟨100, [1, 2]⟩, ⟨122, [3]⟩] ∧
    convertedName (bytes ".012..HDF") (bytes "mseed") 100 = convertedName (bytes ".012..HDF") (bytes "mseed") 122 ∧
    ∀ name tr, (Dir.writeAll (fun _ => none) (segmentWrites (bytes ".012..HDF") (bytes "mseed") s.w.out)) name = some tr →
      tr = ⟨122, [3]⟩ := by
  refine ⟨⟨[0], 1, 3600000000, 253402300799000000, fun _ => .ok [⟨100, [1, 2]⟩, ⟨122, [3]⟩]⟩,
    ⟨12, 1000000, ⟨[], 3600000000, [⟨100, [1, 2]⟩, ⟨122, [3]⟩]⟩, [[0]]⟩, by decide +kernel, ?_, ?_, ?_⟩
  · decide +kernel
  · decide +kernel
  · have e1 : convertedName (bytes ".012..HDF") (bytes "mseed") 100 = convertedName (bytes ".012..HDF") (bytes "mseed") 122 := by
      decide +kernel
    intro name tr h
    have hout : (convertLoops ⟨[0], 1, 3600000000, 253402300799000000, fun _ => .ok [⟨100, [1, 2]⟩, ⟨122, [3]⟩]⟩ none 5) =
        .done ⟨12, 1000000, ⟨[], 3600000000, [⟨100, [1, 2]⟩, ⟨122, [3]⟩]⟩, [[0]]⟩ := by decide +kernel
    change (Dir.writeAll (fun _ => none) (segmentWrites (bytes ".012..HDF") (bytes "mseed")
      [⟨100, [1, 2]⟩, ⟨122, [3]⟩])) name = some tr at h
    simp only [segmentWrites, List.map_cons, List.map_nil, Dir.writeAll, List.foldl_cons, List.foldl_nil, Dir.write, e1] at h
    split_ifs at h with h1
    · simpa using h.symm

/-! ## C37 -/

theorem writeAll_append {α : Type} (d : Dir α) (a b : List (List Nat × α)) : d.writeAll (a ++ b) = (d.writeAll a).writeAll b := by
  unfold Dir.writeAll
  rw [List.foldl_append]

/-- The content of a file after some writes: the last one written, or the one before. -/
theorem writeAll_get {α : Type} (d : Dir α) (ws : List (List Nat × α)) (x : List Nat) :
    d.writeAll ws x = match (ws.filter fun w => decide (w.1 = x)).getLast? with
      | some w => some w.2
      | none => d x := by
  rcases List.eq_nil_or_concat ws with h | ⟨r, w, h⟩
  · rw [h]; rfl
  · rw [List.concat_eq_append] at h
    have ih := writeAll_get d r x
    have : r.length < ws.length := by rw [h]; simp
    rw [h, writeAll_append, List.filter_append]
    show (Dir.write (d.writeAll r) w.1 w.2) x = _
    unfold Dir.write
    by_cases hx : x = w.1
    · rw [if_pos hx, List.filter_cons_of_pos (by simp [hx]), List.filter_nil, List.getLast?_concat]
    · rw [if_neg hx, List.filter_cons_of_neg (by simpa using fun h => hx h.symm), List.filter_nil, List.append_nil, ih]
termination_by ws.length

/-- **C37.** The converted files after a run that was interrupted at any point — after any number `k` of complete
writes, the file being written holding anything at all — and then a complete run, are the same as after one
uninterrupted run: for every conversion, every earlier content of the directory. (The complete run does the same writes
because it depends only on the raw files and arguments.) -/
theorem C37_repeatable (id fmt : List Nat) (out : List Trace) (dir : Dir Trace) (k : Nat) (broken : Option Trace) :
    let writes := segmentWrites id fmt out
    let interrupted := (dir.writeAll (writes.take k)).writeAll
      (match writes[k]?, broken with | some w, some g => [(w.1, g)] | _, _ => [])
    interrupted.writeAll writes = dir.writeAll writes := by
  intro writes interrupted
  have key : ∀ (ws : List (List Nat × Trace)), (∀ w ∈ ws, ∃ w' ∈ writes, w'.1 = w.1) →
      (dir.writeAll ws).writeAll writes = dir.writeAll writes := by
    intro ws hws
    funext x
    rw [writeAll_get, writeAll_get dir writes]
    cases hl : (writes.filter fun w => decide (w.1 = x)).getLast? with
    | some w => rfl
    | none =>
      simp only
      rw [writeAll_get]
      have hnil : writes.filter (fun w => decide (w.1 = x)) = [] := List.getLast?_eq_none_iff.mp hl
      have : ws.filter (fun w => decide (w.1 = x)) = [] := by
        rw [List.filter_eq_nil_iff]
        intro w hw h
        obtain ⟨w', h1, h2⟩ := hws w hw
        rw [List.filter_eq_nil_iff] at hnil
        refine hnil w' h1 ?_
        simp only [decide_eq_true_eq] at h ⊢
        rw [h2, h]
      rw [this]
      rfl
  have hi : interrupted = dir.writeAll (writes.take k ++
      (match writes[k]?, broken with | some w, some g => [(w.1, g)] | _, _ => [])) := by
    rw [writeAll_append]
  rw [hi]
  apply key
  intro w hw
  rcases List.mem_append.mp hw with h | h
  · exact ⟨w, List.mem_of_mem_take h, rfl⟩
  · cases hk : writes[k]? with
    | none => rw [hk] at h; simp at h
    | some w0 =>
      cases broken with
      | none => rw [hk] at h; simp at h
      | some g =>
        rw [hk] at h
        rw [List.mem_singleton.mp h]
        exact ⟨w0, List.mem_of_getElem? hk, rfl⟩

/-- The files left by the example conversion are not trivial: the directory gets four files. -/
example : (segmentWrites (bytes ".012..HDF") (bytes "mseed") (convertLoops demoJob none 20).written).map Prod.fst =
    [bytes "1970-01-02T01_59_59..012..HDF.mseed", bytes "1970-01-02T01_59_59..012..HDF.mseed",
     bytes "1970-01-02T02_00_00..012..HDF.mseed", bytes "1970-01-02T02_00_05..012..HDF.mseed"] := by
  decide +kernel

end Gemlog
