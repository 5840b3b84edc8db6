import Verif.Model.Xcorr
import Verif.Props.Days
import Verif.Props.Summary
import Verif.Props.Windows
import Verif.Props.Rename
import Verif.Props.Inventory
import Mathlib.Tactic.Linarith
import Mathlib.Tactic.Ring
import Mathlib.Tactic.FieldSimp

/-!
# C71, C73, C74: channels, upsampling and options of the cross-correlation
-/

namespace Gemlog

/-! ## C71: channels -/

/-- A letter, a digit or an underscore. -/
def IdChar (b : Nat) : Prop := (48 ≤ b ∧ b ≤ 57) ∨ (65 ≤ b ∧ b ≤ 90) ∨ b = 95 ∨ (97 ≤ b ∧ b ≤ 122)

theorem isWord_iff (b : Nat) : isWord b = true ↔ IdChar b := by
  unfold isWord IdChar
  simp [or_assoc]

/-- A complete identifier: network, station, location and three characters of the channel; more may follow. -/
def CompleteID (e : List Nat) : Prop :=
  ∃ net sta loc cha rest, e = net ++ [46] ++ (sta ++ [46] ++ (loc ++ [46] ++ (cha ++ rest))) ∧
    (∀ b ∈ net ++ sta ++ loc ++ cha, IdChar b) ∧ net.length ≤ 2 ∧ 1 ≤ sta.length ∧ sta.length ≤ 5 ∧ loc.length ≤ 2 ∧ cha.length = 3

/-- The channels asked for: all if no list is given; otherwise the identifiers that are complete as they are, and the channels in which the
others are found. -/
def ChannelWanted (search : List Nat → List Nat → Bool) (all : List (List Nat)) (wanted : Option (List (List Nat))) (id : List Nat) : Prop :=
  (wanted = none ∨ wanted = some []) ∧ id ∈ all ∨
    ∃ l, wanted = some l ∧ ∃ e ∈ l, (CompleteID e ∧ id = e) ∨ (¬ CompleteID e ∧ id ∈ all ∧ search e id = true)

/-- The channels excluded: those in which one of the excluded strings is found. -/
def ChannelExcluded (search : List Nat → List Nat → Bool) (unwanted : Option (List (List Nat))) (id : List Nat) : Prop :=
  ∃ l, unwanted = some l ∧ ∃ e ∈ l, search e id = true

theorem pySplit_inv (c : Nat) : ∀ (e w : List Nat) (r : List (List Nat)), pySplit c e = w :: r →
    c ∉ w ∧ (r = [] → e = w) ∧ (r ≠ [] → ∃ e', e = w ++ [c] ++ e' ∧ pySplit c e' = r)
  | [], w, r, h => by
    simp only [pySplit, List.cons.injEq] at h
    obtain ⟨rfl, rfl⟩ := h
    simp
  | x :: l, w, r, h => by
    rw [pySplit] at h
    split at h
    · rename_i hx
      simp only [List.cons.injEq] at h
      obtain ⟨rfl, rfl⟩ := h
      exact ⟨by simp, fun h => absurd h (pySplit_ne c l), fun _ => ⟨l, by simp [hx], rfl⟩⟩
    · rename_i hx
      cases hs : pySplit c l with
      | nil => exact absurd hs (pySplit_ne c l)
      | cons w' r' =>
        rw [hs] at h
        simp only [List.cons.injEq] at h
        obtain ⟨rfl, rfl⟩ := h
        obtain ⟨h1, h2, h3⟩ := pySplit_inv c l w' r' hs
        refine ⟨by simp [h1, Ne.symm hx], fun hr => by rw [h2 hr], fun hr => ?_⟩
        obtain ⟨e', he, hp⟩ := h3 hr
        exact ⟨e', by rw [he]; simp, hp⟩

theorem isWord_46 {w : List Nat} (h : ∀ b ∈ w, isWord b = true) : 46 ∉ w := fun h46 => absurd (h 46 h46) (by decide)

theorem pySplit_head_prefix (c : Nat) : ∀ (a rest : List Nat), c ∉ a → ∃ t r, pySplit c (a ++ rest) = (a ++ t) :: r
  | [], rest, _ => by
    cases h : pySplit c rest with
    | nil => exact absurd h (pySplit_ne c rest)
    | cons w r => exact ⟨w, r, by simpa using h⟩
  | x :: a, rest, h => by
    obtain ⟨t, r, ht⟩ := pySplit_head_prefix c a rest fun ha => h (by simp [ha])
    refine ⟨t, r, ?_⟩
    rw [List.cons_append, pySplit, if_neg (fun e => h (by simp [e])), ht]
    rfl

theorem fullID_iff (e : List Nat) : fullID e = true ↔ CompleteID e := by
  constructor
  · intro h
    unfold fullID at h
    split at h
    · rename_i net sta loc cha more hs
      simp only [Bool.and_eq_true, decide_eq_true_eq, List.all_eq_true] at h
      obtain ⟨⟨⟨⟨⟨⟨⟨h1, h2⟩, h3⟩, h4⟩, h5⟩, h6⟩, h7⟩, h8⟩ := h
      obtain ⟨-, -, k1⟩ := pySplit_inv _ _ _ _ hs
      obtain ⟨e1, rfl, hs1⟩ := k1 (by simp)
      obtain ⟨-, -, k2⟩ := pySplit_inv _ _ _ _ hs1
      obtain ⟨e2, rfl, hs2⟩ := k2 (by simp)
      obtain ⟨-, -, k3⟩ := pySplit_inv _ _ _ _ hs2
      obtain ⟨e3, rfl, hs3⟩ := k3 (by simp)
      obtain ⟨-, k4, k5⟩ := pySplit_inv _ _ _ _ hs3
      have hpre : ∃ rest, e3 = cha.take 3 ++ rest := by
        by_cases hm : more = []
        · exact ⟨cha.drop 3, by rw [k4 hm]; simp⟩
        · obtain ⟨e4, he4, -⟩ := k5 hm
          refine ⟨cha.drop 3 ++ [46] ++ e4, ?_⟩
          rw [he4, ← List.append_assoc, ← List.append_assoc, List.take_append_drop]
      obtain ⟨rest, hrest⟩ := hpre
      refine ⟨net, sta, loc, cha.take 3, rest, by rw [hrest], ?_, h2, h4.1, h4.2, h6, by simp; omega⟩
      intro b hb
      rw [← isWord_iff]
      simp only [List.mem_append] at hb
      rcases hb with ((hb | hb) | hb) | hb
      · exact h1 b hb
      · exact h3 b hb
      · exact h5 b hb
      · exact h7 b hb
    · simp at h
  · rintro ⟨net, sta, loc, cha, rest, rfl, hw, h2, h4, h5, h6, h8⟩
    have w1 : ∀ b ∈ net, isWord b = true := fun b hb => (isWord_iff b).mpr (hw b (by simp [hb]))
    have w2 : ∀ b ∈ sta, isWord b = true := fun b hb => (isWord_iff b).mpr (hw b (by simp [hb]))
    have w3 : ∀ b ∈ loc, isWord b = true := fun b hb => (isWord_iff b).mpr (hw b (by simp [hb]))
    have w4 : ∀ b ∈ cha, isWord b = true := fun b hb => (isWord_iff b).mpr (hw b (by simp [hb]))
    unfold fullID
    obtain ⟨t, r, ht⟩ := pySplit_head_prefix 46 cha rest (isWord_46 w4)
    rw [pySplit_append _ _ (isWord_46 w1), pySplit_append _ _ (isWord_46 w2), pySplit_append _ _ (isWord_46 w3), ht]
    simp only [Bool.and_eq_true, decide_eq_true_eq, List.all_eq_true]
    refine ⟨⟨⟨⟨⟨⟨⟨w1, h2⟩, w2⟩, h4, h5⟩, w3⟩, h6⟩, ?_⟩, by simp; omega⟩
    rw [List.take_append_of_le_length (by omega), List.take_of_length_le (by omega)]
    exact w4

theorem mem_idsFor (search : List Nat → List Nat → Bool) (found : List (List Nat)) (e id : List Nat) :
    id ∈ idsFor search found e ↔ (CompleteID e ∧ id = e) ∨ (¬ CompleteID e ∧ id ∈ found ∧ search e id = true) := by
  rw [← fullID_iff]
  unfold idsFor
  cases fullID e <;> simp

/-- **C71.** The channels that are processed are exactly those that are asked for and not excluded, each once; whatever `re.search` does. -/
theorem C71_channels (search : List Nat → List Nat → Bool) (all : List (List Nat)) (wanted unwanted : Option (List (List Nat))) :
    (checkInputIDs search all wanted unwanted).Nodup ∧
      ∀ id, id ∈ checkInputIDs search all wanted unwanted ↔ ChannelWanted search all wanted id ∧ ¬ ChannelExcluded search unwanted id := by
  have key : ∀ chosen : List (List Nat), chosen.Nodup → (∀ id, id ∈ chosen ↔ ChannelWanted search all wanted id) →
      (match unwanted with
        | none => chosen
        | some ex => chosen.filter fun id => !ex.any fun e => search e id).Nodup ∧
      ∀ id, id ∈ (match unwanted with
        | none => chosen
        | some ex => chosen.filter fun id => !ex.any fun e => search e id) ↔ ChannelWanted search all wanted id ∧ ¬ ChannelExcluded search unwanted id := by
    intro chosen h1 h2
    cases unwanted with
    | none => exact ⟨h1, fun id => by rw [h2]; simp [ChannelExcluded]⟩
    | some ex => exact ⟨h1.filter _, fun id => by rw [List.mem_filter, h2]; simp [ChannelExcluded]⟩
  unfold checkInputIDs
  dsimp only
  rcases wanted with _ | ⟨_ | ⟨e, l⟩⟩
  · exact key _ (uniqueIn_nodup _) fun id => by rw [mem_uniqueIn]; simp [ChannelWanted]
  · exact key _ (uniqueIn_nodup _) fun id => by rw [mem_uniqueIn]; simp [ChannelWanted]
  · refine key _ (uniqueIn_nodup _) fun id => ?_
    rw [mem_uniqueIn, List.mem_flatMap]
    constructor
    · rintro ⟨e', h1, h2⟩
      rw [mem_idsFor, mem_uniqueIn] at h2
      exact Or.inr ⟨_, rfl, e', h1, h2⟩
    · rintro (⟨h, -⟩ | ⟨l', h, e', h1, h2⟩)
      · rcases h with h | h <;> simp at h
      · injection h with h
        subst h
        refine ⟨e', h1, ?_⟩
        rw [mem_idsFor, mem_uniqueIn]
        exact h2

/-- **C71, samples.** Every sample handed to the analysis of a day is a sample of one of the files, of a channel that is asked for and not
excluded. -/
theorem C71_samples (search : List Nat → List Nat → Bool) (files : List DFile) (hnd : (files.map DFile.name).Nodup) (ho : TimeOrdered files)
    (m n : Int) (hm : FirstTime files m) (hn : LastTime files n) (wanted unwanted : Option (List (List Nat))) (t1 t2 : Int)
    (days : List (List DSample)) (hr : loopChosen search files wanted unwanted t1 t2 = some days) (out : List DSample) (hout : out ∈ days)
    (x : DSample) (hx : x ∈ out) :
    x ∈ files.flatMap DFile.all ∧ ChannelWanted search ((fileTable files).map DRow.id) wanted x.id ∧ ¬ ChannelExcluded search unwanted x.id := by
  unfold loopChosen at hr
  obtain ⟨hlen, hcount⟩ := loopThroughDays_count hnd ho hm hn hr
  obtain ⟨j, hj, rfl⟩ := List.mem_iff_getElem.mp hout
  have hc := hcount j _ _ (List.getElem?_eq_getElem (by omega)) (List.getElem?_eq_getElem hj) x
  have hpos : 0 < days[j].count x := List.count_pos_iff.mpr hx
  split_ifs at hc with hin
  · refine ⟨List.count_pos_iff.mp (by omega), ?_⟩
    exact ((C71_channels search _ wanted unwanted).2 x.id).mp hin.1
  · omega

/-- `re.search` for patterns without special characters: is the pattern a part of the string? -/
def LiteralSearch (search : List Nat → List Nat → Bool) : Prop := ∀ p id : List Nat, (∀ b ∈ p, IdChar b) → search p id = isInfix p id

theorem not_fullID {p : List Nat} (h : ∀ b ∈ p, IdChar b) : fullID p = false := by
  unfold fullID
  rw [pySplit_word]
  intro h46
  have := h 46 h46
  unfold IdChar at this
  omega

/-- **C71, parts of identifiers.** Asking for a station by its code also yields every other channel whose identifier contains the code: asking
for station `12` yields stations `112` and `120`, too. Excluding works the same way. -/
theorem C71_violated_parts (search : List Nat → List Nat → Bool) (hs : LiteralSearch search) (all : List (List Nat)) (code : List Nat)
    (hc : ∀ b ∈ code, IdChar b) (id : List Nat) (hid : id ∈ all) (h : code <:+: id) :
    id ∈ checkInputIDs search all (some [code]) none ∧ id ∉ checkInputIDs search all none (some [code]) := by
  have hsearch : search code id = true := by rw [hs code id hc, isInfix_iff]; exact h
  constructor
  · rw [(C71_channels _ _ _ _).2]
    refine ⟨Or.inr ⟨_, rfl, code, by simp, Or.inr ⟨by rw [← fullID_iff, not_fullID hc]; simp, hid, hsearch⟩⟩, ?_⟩
    rintro ⟨l, h, -⟩
    cases h
  · rw [(C71_channels _ _ _ _).2]
    rintro ⟨-, h⟩
    exact h ⟨_, rfl, code, by simp, hsearch⟩

/-- Stations 12 and 112. -/
example : checkInputIDs isInfix [bytes "XA.12..HDF", bytes "XA.112..HDF", bytes "XA.12..HDF", bytes "XA.3..HDF"] (some [bytes "12"]) none =
    [bytes "XA.12..HDF", bytes "XA.112..HDF"] := by decide +kernel

example : LiteralSearch isInfix := fun _ _ _ => rfl

example : checkInputIDs isInfix [bytes "XA.12..HDF", bytes "XA.112..HDF", bytes "XA.12..HDF", bytes "XA.3..HDF"] none (some [bytes "112"]) =
    [bytes "XA.12..HDF", bytes "XA.3..HDF"] := by decide +kernel

/-- **C71, patterns.** A regular expression that begins like a complete identifier is taken for one, and finds nothing, although the
comment in the code invites regular expressions: here a choice between two stations that are both in the data. -/
theorem C71_violated_patterns (search : List Nat → List Nat → Bool) :
    checkInputIDs search [bytes "XA.S01..HDF", bytes "XA.S02..HDF"] (some [bytes "XA.S01..HDF|XA.S02..HDF"]) none =
      [bytes "XA.S01..HDF|XA.S02..HDF"] := by
  unfold checkInputIDs idsFor
  rfl

/-! ## C73: upsampling -/

/-- **C73.** Upsampling by a whole number `n`: a trace of `k + 1` samples becomes one of `n * k` samples, `n` times as dense, from the same
start on; sample `j * n` of the result is sample `j` of the trace, at the same time, for all samples but the last, which is dropped; and
the spline is only evaluated between the first and the last sample. -/
theorem C73_upsample (spline : List Rat → Rat → Rat) (hsp : ∀ (l : List Rat) (j : Nat) (x : Rat), l[j]? = some x → spline l (j : Rat) = x)
    (n : Nat) (hn : 0 < n) (tr : UTrace) (k : Nat) (hlen : tr.data.length = k + 1) :
    let out := upsampleTrace spline n tr
    out.start = tr.start ∧ out.delta * n = tr.delta ∧ out.data.length = n * k ∧
      (∀ (j : Nat) (x : Rat), j < k → tr.data[j]? = some x → out.data[j * n]? = some x ∧
        out.start + (j * n : Nat) * out.delta = tr.start + j * tr.delta) ∧
      ∀ (i : Nat) (y : Rat), out.data[i]? = some y → ∃ t : Rat, y = spline tr.data t ∧ 0 ≤ t ∧ t < k ∧
        out.start + i * out.delta = tr.start + t * tr.delta := by
  have hn' : (n : Rat) ≠ 0 := by exact_mod_cast (by omega : n ≠ 0)
  have hnp : (0 : Rat) < n := by exact_mod_cast hn
  have hceil : ⌈(n : Rat) * ((tr.data.length : Rat) - 1)⌉.toNat = n * k := by
    rw [hlen]
    have : (n : Rat) * (((k + 1 : Nat) : Rat) - 1) = (((n * k : Nat) : Int) : Rat) := by push_cast; ring
    rw [this, Int.ceil_intCast]
    rfl
  dsimp only
  unfold upsampleTrace
  dsimp only
  rw [hceil]
  refine ⟨rfl, by field_simp, by simp, ?_, ?_⟩
  · intro j x hj hx
    have hlt : j * n < n * k := by rw [Nat.mul_comm]; exact Nat.mul_lt_mul_of_pos_left hj hn
    constructor
    · rw [List.getElem?_map, List.getElem?_range hlt, Option.map_some]
      have : ((j * n : Nat) : Rat) / n = j := by push_cast; field_simp
      rw [this, hsp _ _ _ hx]
    · push_cast
      field_simp
  · intro i y hy
    rw [List.getElem?_map] at hy
    by_cases hi : i < n * k
    · rw [List.getElem?_range hi, Option.map_some, Option.some.injEq] at hy
      refine ⟨(i : Rat) / n, hy.symm, by positivity, ?_, by field_simp⟩
      rw [div_lt_iff₀ hnp]
      have : (i : Rat) < ((n * k : Nat) : Rat) := by exact_mod_cast hi
      push_cast at this
      linarith
    · rw [List.getElem?_eq_none (by simp; omega)] at hy
      simp at hy

/-- Linear interpolation, as an example of a spline. -/
def lineSpline (l : List Rat) (t : Rat) : Rat :=
  l.getD ⌊t⌋.toNat 0 + (t - ⌊t⌋) * (l.getD (⌊t⌋.toNat + 1) 0 - l.getD ⌊t⌋.toNat 0)

example : ∀ (l : List Rat) (j : Nat) (x : Rat), l[j]? = some x → lineSpline l (j : Rat) = x := by
  intro l j x h
  unfold lineSpline
  have : ⌊(j : Rat)⌋ = (j : Int) := Int.floor_natCast j
  rw [this]
  simp [List.getD_eq_getElem?_getD, h]

example : upsampleTrace lineSpline 2 ⟨10, 1, [0, 2, 6, 4]⟩ = ⟨10, 1 / 2, [0, 1, 2, 4, 6, 5]⟩ := by decide +kernel

/-! ## C74: options -/

/-- The options allowed, for numbers: a band with `0 ≤ fl < fh`, a positive window length, an overlap from 0 to below 1, an upsampling ratio
of at least 1. -/
structure Allowed (fl fh win overlap upsample : Rat) : Prop where
  band : 0 ≤ fl ∧ fl < fh
  length : 0 < win
  overlapping : 0 ≤ overlap ∧ overlap < 1
  ratio : 1 ≤ upsample

/-- **C74.** Numbers are accepted as options exactly if they are allowed. -/
theorem C74_numbers (fl fh win overlap upsample : Rat) :
    validateInputs (.num fl) (.num fh) (.num win) (.num overlap) (.num upsample) = true ↔ Allowed fl fh win overlap upsample := by
  unfold validateInputs OptVal.lt OptVal.ge orElseRaise
  simp only [Bool.and_eq_true, decide_eq_true_eq]
  constructor
  · rintro ⟨⟨⟨⟨h1, h2⟩, h3⟩, h4⟩, h5⟩
    by_cases h : fl < 0
    · simp [h] at h1
    · by_cases h' : fh < 0
      · simp [h, h'] at h1
      · simp only [h, h', decide_false, Option.some.injEq, decide_eq_false_iff_not, not_le, decide_eq_true_eq] at h1 h2 h3 h4 h5
        exact ⟨⟨not_lt.mp h, h1⟩, h2, ⟨h3, h4⟩, h5⟩
  · rintro ⟨⟨h1, h2⟩, h3, ⟨h4, h5⟩, h6⟩
    have h : ¬ fl < 0 := not_lt.mpr h1
    have h' : ¬ fh < 0 := by intro h; linarith
    simp [h, h', h2, h3, h4, h5, h6]

/-- **C74, other values.** Values that are not numbers are always rejected. -/
theorem C74_other (fl fh win overlap upsample : OptVal) (h : fl = .other ∨ fh = .other ∨ win = .other ∨ overlap = .other ∨ upsample = .other) :
    validateInputs fl fh win overlap upsample = false := by
  unfold validateInputs
  rcases h with rfl | rfl | rfl | rfl | rfl
  · simp [OptVal.lt, orElseRaise]
  · cases fl with
    | num x =>
      by_cases hx : x < 0 <;> simp [OptVal.lt, OptVal.ge, orElseRaise, hx]
    | nan => simp [OptVal.lt, OptVal.ge, orElseRaise]
    | other => simp [OptVal.lt, orElseRaise]
  · simp [OptVal.ge]
  · simp [OptVal.ge]
  · simp [OptVal.ge]

/-- **C74, windows.** With allowed options the division in the number of windows never fails, whatever the data. -/
theorem C74_windows (fl fh win overlap upsample : Rat) (h : validateInputs (.num fl) (.num fh) (.num win) (.num overlap) (.num upsample) = true) :
    win * (1 - overlap) ≠ 0 := by
  obtain ⟨-, h1, ⟨-, h2⟩, -⟩ := (C74_numbers _ _ _ _ _).mp h
  have : 0 < win * (1 - overlap) := mul_pos h1 (by linarith)
  exact ne_of_gt this

/-- **C74, NaN.** A window length that is not a number (NaN) is accepted, although the message demands a positive number. -/
theorem C74_violated_nan (fl fh overlap upsample : Rat) (h : Allowed fl fh 1 overlap upsample) :
    validateInputs (.num fl) (.num fh) .nan (.num overlap) (.num upsample) = true := by
  have h' := (C74_numbers fl fh 1 overlap upsample).mpr h
  unfold validateInputs at h' ⊢
  simp only [Bool.and_eq_true] at h' ⊢
  exact ⟨⟨⟨⟨h'.1.1.1.1, by decide⟩, h'.1.1.2⟩, h'.1.2⟩, h'.2⟩

/-- `v` is the value in effect of an option with the default `x`: the one given, or the default if none is. -/
def InEffect (given : Option OptVal) (x : Rat) (v : OptVal) : Prop := given = some v ∨ given = none ∧ v = .num x

/-- **C74, defaults.** Any of the options may be given or omitted, but the overlap and the upsampling ratio both or neither. Then the analysis of a day uses each option given and the default of each
omitted, of 5 to 40 Hz, windows of 5 s without overlap and no upsampling; it fails exactly if these values are not accepted. Missing: the other combinations
(`C74_violated_defaults`). -/
theorem C74_defaults_partial (a : DayArgs) (h : a.overlap.isSome = a.upsample.isSome) (fl fh win overlap upsample : OptVal)
    (h1 : InEffect a.fl 5 fl) (h2 : InEffect a.fh 40 fh) (h3 : InEffect a.win 5 win) (h4 : InEffect a.overlap 0 overlap)
    (h5 : InEffect a.upsample 1 upsample) :
    (validateInputs fl fh win overlap upsample = true → dayOptions a = some (fl, fh, win, overlap, upsample)) ∧
    (validateInputs fl fh win overlap upsample = false → dayOptions a = none) := by
  have e : ∀ {o x v}, InEffect o x v → o.getD (.num x) = v := by
    rintro o x v (h | ⟨h, h'⟩) <;> rw [h]
    · rfl
    · exact h'.symm
  unfold dayOptions
  dsimp only
  rw [e h1, e h2, e h3, e h4]
  rcases h5 with h5 | ⟨h5, h6⟩ <;> rw [h5] at h ⊢
  · obtain ⟨v, hv⟩ := Option.isSome_iff_exists.mp h
    rw [hv]
    exact ⟨fun hv => if_pos hv, fun hv => if_neg (by simpa using hv)⟩
  · rw [Option.isSome_none, Option.isSome_eq_false_iff, Option.isNone_iff_eq_none] at h
    rw [h, h6]
    exact ⟨fun hv => if_pos hv, fun hv => if_neg (by simpa using hv)⟩

/-- **C74, defaults.** Without any option the defaults are used. -/
theorem C74_no_options : dayOptions ⟨none, none, none, none, none⟩ = some (.num 5, .num 40, .num 5, .num 0, .num 1) := by
  decide +kernel

example := C74_defaults_partial ⟨some (.num 2), none, some (.num 10), none, none⟩ rfl (.num 2) (.num 40) (.num 10) (.num 0) (.num 1)
  (.inl rfl) (.inr ⟨rfl, rfl⟩) (.inl rfl) (.inr ⟨rfl, rfl⟩) (.inr ⟨rfl, rfl⟩)

/-- **C74, defaults.** If an upsampling ratio is given but no overlap, there is no upsampling; if an overlap is given but no upsampling ratio,
the analysis always fails, instead of using the default ratio 1. -/
theorem C74_violated_defaults (a : DayArgs) :
    (a.overlap = none → ∀ o, dayOptions a = some o → o.2.2.2.2 = .num 1) ∧
    (a.overlap.isSome → a.upsample = none → dayOptions a = none) := by
  constructor
  · intro h o ho
    unfold dayOptions at ho
    rw [h] at ho
    dsimp only at ho
    split_ifs at ho
    injection ho with ho
    rw [← ho]
  · intro h h'
    obtain ⟨v, hv⟩ := Option.isSome_iff_exists.mp h
    unfold dayOptions
    rw [hv, h']
    dsimp only
    rw [if_neg]
    rw [Option.getD_none, C74_other _ _ _ _ _ (Or.inr (Or.inr (Or.inr (Or.inr rfl))))]
    simp

example : Allowed 5 40 5 (1 / 2) 4 := ⟨⟨by norm_num, by norm_num⟩, by norm_num, ⟨by norm_num, by norm_num⟩, by norm_num⟩

example : dayOptions ⟨none, none, none, none, some (.num 4)⟩ = some (.num 5, .num 40, .num 5, .num 0, .num 1) := by decide +kernel

end Gemlog
