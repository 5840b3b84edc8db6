import Verif.Model.Rename
import Verif.Props.Names

/-!
# C68: renaming converted files
-/

namespace Gemlog

/-! ## Specification -/

/-- The fields of a pattern. -/
inductive NField where
  | year | mon | day | jd | hour | min | sec | net | sta | loc | chan | fmt
  deriving DecidableEq, Repr

/-- The name of a field in a pattern. -/
def NField.text : NField → List Nat
  | .year => bytes "year" | .mon => bytes "mon" | .day => bytes "day" | .jd => bytes "jd" | .hour => bytes "hour" | .min => bytes "min"
  | .sec => bytes "sec" | .net => bytes "net" | .sta => bytes "sta" | .loc => bytes "loc" | .chan => bytes "chan" | .fmt => bytes "fmt"

/-- A piece of a pattern: a character other than a brace, or a field. -/
inductive Piece where
  | lit (c : Nat) (h : c ≠ 123 ∧ c ≠ 125)
  | field (f : NField)

/-- The text of a piece: the character, or the name of the field in braces. -/
def Piece.text : Piece → List Nat
  | .lit c _ => [c]
  | .field f => [123] ++ f.text ++ [125]

/-- What a field stands for, for a record that starts at `start` (hundredths of a second since 1970): date and time of the day in UTC with
leading zeros, the codes of the row, the channel `HDF`, the format. -/
def NField.value (row : StationRow) (fmt : List Nat) (start : Int) : NField → List Nat
  | .year => padNum 4 (dateOfDay (start / 8640000)).year.toNat
  | .mon => padNum 2 (dateOfDay (start / 8640000)).month.toNat
  | .day => padNum 2 (dateOfDay (start / 8640000)).day.toNat
  | .jd => padNum 3 (daysBeforeMonth (dateOfDay (start / 8640000)).year (dateOfDay (start / 8640000)).month + (dateOfDay (start / 8640000)).day).toNat
  | .hour => padNum 2 (start / 360000 % 24).toNat
  | .min => padNum 2 (start / 6000 % 60).toNat
  | .sec => padNum 2 (start / 100 % 60).toNat
  | .net => row.network
  | .sta => row.station
  | .loc => row.location
  | .chan => bytes "HDF"
  | .fmt => fmt

/-- The name a pattern gives. -/
def nameOf (pieces : List Piece) (row : StationRow) (fmt : List Nat) (start : Int) : List Nat :=
  pieces.flatMap fun
    | .lit c _ => [c]
    | .field f => f.value row fmt start

/-! ## Replacing fields -/

/-- A piece with a format specification (with its colon). -/
inductive SpecPiece where
  | lit (c : Nat) (h : c ≠ 123 ∧ c ≠ 125)
  | field (f : NField) (spec : List Nat) (h : spec = [] ∨ ∃ w, isDigit w = true ∧ spec = [58, 48, w, 100])

def SpecPiece.text : SpecPiece → List Nat
  | .lit c _ => [c]
  | .field f spec _ => [123] ++ f.text ++ spec ++ [125]

def specText (ps : List SpecPiece) : List Nat := ps.flatMap SpecPiece.text

/-- A field without specification gets one. -/
def SpecPiece.set (g : NField) (w : Nat) (hw : isDigit w = true) : SpecPiece → SpecPiece
  | .lit c h => .lit c h
  | .field f spec h => if f = g ∧ spec = [] then .field f [58, 48, w, 100] (.inr ⟨w, hw, rfl⟩) else .field f spec h

theorem replaceGo_skip (old new : List Nat) : ∀ (a rest : List Nat), replaceGo old new a.length (a ++ rest) = replaceGo old new 0 rest
  | [], rest => rfl
  | _ :: a, rest => by
    rw [List.length_cons, List.cons_append, replaceGo]
    exact replaceGo_skip old new a rest

theorem replaceGo_copy {w new : List Nat} : ∀ (a rest : List Nat), (∀ c ∈ a, c ≠ 123) →
    replaceGo (123 :: w) new 0 (a ++ rest) = a ++ replaceGo (123 :: w) new 0 rest
  | [], rest, _ => rfl
  | c :: a, rest, h => by
    rw [List.cons_append, replaceGo, if_neg, replaceGo_copy a rest fun c hc => h c (by simp [hc])]
    · rfl
    · have := h c (by simp)
      simp only [List.isPrefixOf, Bool.and_eq_true, beq_iff_eq, not_and]
      intro h'
      exact absurd h'.symm this

/-- The letters of field names. -/
theorem field_letters (f : NField) : f.text ≠ [] ∧ ∀ c ∈ f.text, 97 ≤ c ∧ c ≤ 122 := by
  cases f <;> decide

theorem field_injective {f g : NField} (h : f.text = g.text) : f = g := by
  cases f <;> cases g <;> first | rfl | (revert h; decide)

/-- A word of letters followed by something else is a prefix only of itself. -/
theorem letters_prefix {u v : List Nat} {x : Nat} {s rest : List Nat} (hu : ∀ c ∈ u, 97 ≤ c ∧ c ≤ 122) (hv : ∀ c ∈ v, 97 ≤ c ∧ c ≤ 122)
    (hx : x < 97 ∨ 122 < x) (hs : s.head? = some x) (h : (u ++ [125]).isPrefixOf (v ++ s ++ rest) = true) : u = v ∧ x = 125 := by
  induction u generalizing v with
  | nil =>
    cases v with
    | nil =>
      cases s with
      | nil => simp at hs
      | cons y s =>
        simp only [List.head?_cons, Option.some.injEq] at hs
        simp only [List.nil_append, List.cons_append, List.isPrefixOf, Bool.and_eq_true, beq_iff_eq] at h
        exact ⟨rfl, by rw [← hs]; exact h.1.symm⟩
    | cons y v =>
      simp only [List.nil_append, List.cons_append, List.isPrefixOf, Bool.and_eq_true, beq_iff_eq] at h
      have := hv y (by simp)
      omega
  | cons z u ih =>
    cases v with
    | nil =>
      cases s with
      | nil => simp at hs
      | cons y s =>
        simp only [List.head?_cons, Option.some.injEq] at hs
        simp only [List.nil_append, List.cons_append, List.isPrefixOf, Bool.and_eq_true, beq_iff_eq] at h
        have := hu z (by simp)
        omega
    | cons y v =>
      simp only [List.cons_append, List.isPrefixOf, Bool.and_eq_true, beq_iff_eq] at h
      obtain ⟨h1, h2⟩ := ih (v := v) (fun c hc => hu c (by simp [hc])) (fun c hc => hv c (by simp [hc])) h.2
      exact ⟨by rw [h.1, h1], h2⟩

theorem replace_field (g : NField) (w : Nat) (hw : isDigit w = true) : ∀ ps : List SpecPiece,
    pyReplace ([123] ++ g.text ++ [125]) ([123] ++ g.text ++ [58, 48, w, 100] ++ [125]) (specText ps) = specText (ps.map (SpecPiece.set g w hw))
  | [] => rfl
  | p :: ps => by
    have ih := replace_field g w hw ps
    have hw' := isDigit_iff.mp hw
    unfold pyReplace at ih ⊢
    unfold specText at ih ⊢
    rw [List.map_cons, List.flatMap_cons, List.flatMap_cons, ← ih]
    rw [show [123] ++ g.text ++ [125] = 123 :: (g.text ++ [125]) by simp]
    cases p with
    | lit c h =>
      rw [SpecPiece.text, replaceGo_copy _ _ (by simpa using h.1)]
      rfl
    | field f spec h =>
      have hf := (field_letters f).2
      have hg := (field_letters g).2
      by_cases hc : f = g ∧ spec = []
      · obtain ⟨rfl, rfl⟩ := hc
        rw [SpecPiece.set, if_pos ⟨rfl, rfl⟩, SpecPiece.text, SpecPiece.text]
        rw [show [123] ++ f.text ++ [] ++ [125] = 123 :: (f.text ++ [125]) by simp, show ∀ l, (123 :: (f.text ++ [125])) ++ l = 123 :: ((f.text ++ [125]) ++ l) from fun _ => rfl,
          replaceGo, if_pos]
        · rw [show (123 :: (f.text ++ [125])).length - 1 = (f.text ++ [125]).length from rfl, replaceGo_skip]
        · rw [List.isPrefixOf_iff_prefix, ← List.cons_append]
          exact List.prefix_append _ _
      · rw [SpecPiece.set, if_neg hc, SpecPiece.text]
        rw [show [123] ++ f.text ++ spec ++ [125] = 123 :: (f.text ++ (spec ++ [125])) by simp,
          show ∀ l, (123 :: (f.text ++ (spec ++ [125]))) ++ l = 123 :: ((f.text ++ (spec ++ [125])) ++ l) from fun _ => rfl, replaceGo, if_neg]
        · have hno : ∀ c ∈ f.text ++ (spec ++ [125]), c ≠ 123 := by
            intro c hc
            rcases List.mem_append.mp hc with hc | hc
            · have := hf c hc; omega
            · rcases List.mem_append.mp hc with hc | hc
              · rcases h with rfl | ⟨w, hw, rfl⟩
                · simp at hc
                · have := isDigit_iff.mp hw
                  simp only [List.mem_cons, List.not_mem_nil, or_false] at hc
                  omega
              · simp only [List.mem_singleton] at hc
                omega
          rw [replaceGo_copy _ _ hno]
          rfl
        · intro hp
          simp only [List.isPrefixOf, Bool.and_eq_true, beq_iff_eq, true_and] at hp
          rcases h with rfl | ⟨w, hw, rfl⟩
          · have := letters_prefix hg hf (s := [125]) (x := 125) (by omega) rfl (by simpa using hp)
            exact hc ⟨field_injective this.1.symm, rfl⟩
          · have := letters_prefix hg hf (s := [58, 48, w, 100, 125]) (x := 58) (by omega) rfl (by simpa using hp)
            omega

/-- All fields with a fixed number of digits get their specification. -/
def SpecPiece.fix (p : SpecPiece) : SpecPiece :=
  ((((((p.set .year 52 rfl).set .mon 50 rfl).set .day 50 rfl).set .hour 50 rfl).set .min 50 rfl).set .sec 50 rfl).set .jd 51 rfl

theorem fixDigits_text (ps : List SpecPiece) : fixDigits (specText ps) = specText (ps.map SpecPiece.fix) := by
  have h1 := replace_field .year 52 rfl ps
  have h2 := replace_field .mon 50 rfl (ps.map (SpecPiece.set .year 52 rfl))
  have h3 := replace_field .day 50 rfl ((ps.map (SpecPiece.set .year 52 rfl)).map (SpecPiece.set .mon 50 rfl))
  have h4 := replace_field .hour 50 rfl (((ps.map (SpecPiece.set .year 52 rfl)).map (SpecPiece.set .mon 50 rfl)).map (SpecPiece.set .day 50 rfl))
  have h5 := replace_field .min 50 rfl ((((ps.map (SpecPiece.set .year 52 rfl)).map (SpecPiece.set .mon 50 rfl)).map
    (SpecPiece.set .day 50 rfl)).map (SpecPiece.set .hour 50 rfl))
  have h6 := replace_field .sec 50 rfl (((((ps.map (SpecPiece.set .year 52 rfl)).map (SpecPiece.set .mon 50 rfl)).map
    (SpecPiece.set .day 50 rfl)).map (SpecPiece.set .hour 50 rfl)).map (SpecPiece.set .min 50 rfl))
  have h7 := replace_field .jd 51 rfl ((((((ps.map (SpecPiece.set .year 52 rfl)).map (SpecPiece.set .mon 50 rfl)).map
    (SpecPiece.set .day 50 rfl)).map (SpecPiece.set .hour 50 rfl)).map (SpecPiece.set .min 50 rfl)).map (SpecPiece.set .sec 50 rfl))
  unfold fixDigits
  dsimp only
  rw [show bytes "{year}" = [123] ++ NField.text .year ++ [125] from rfl, show bytes "{year:04d}" = [123] ++ NField.text .year ++ [58, 48, 52, 100] ++ [125] from rfl, h1,
    show bytes "{mon}" = [123] ++ NField.text .mon ++ [125] from rfl, show bytes "{mon:02d}" = [123] ++ NField.text .mon ++ [58, 48, 50, 100] ++ [125] from rfl, h2,
    show bytes "{day}" = [123] ++ NField.text .day ++ [125] from rfl, show bytes "{day:02d}" = [123] ++ NField.text .day ++ [58, 48, 50, 100] ++ [125] from rfl, h3,
    show bytes "{hour}" = [123] ++ NField.text .hour ++ [125] from rfl, show bytes "{hour:02d}" = [123] ++ NField.text .hour ++ [58, 48, 50, 100] ++ [125] from rfl, h4,
    show bytes "{min}" = [123] ++ NField.text .min ++ [125] from rfl, show bytes "{min:02d}" = [123] ++ NField.text .min ++ [58, 48, 50, 100] ++ [125] from rfl, h5,
    show bytes "{sec}" = [123] ++ NField.text .sec ++ [125] from rfl, show bytes "{sec:02d}" = [123] ++ NField.text .sec ++ [58, 48, 50, 100] ++ [125] from rfl, h6,
    show bytes "{jd}" = [123] ++ NField.text .jd ++ [125] from rfl, show bytes "{jd:03d}" = [123] ++ NField.text .jd ++ [58, 48, 51, 100] ++ [125] from rfl, h7]
  simp only [List.map_map]
  rfl

theorem fix_fix (p : SpecPiece) : p.fix.fix = p.fix := by
  cases p with
  | lit c h => rfl
  | field f spec h =>
    rcases h with rfl | ⟨w, hw, rfl⟩
    · cases f <;> rfl
    · cases f <;> rfl

/-- A piece of a pattern as given. -/
def Piece.plain : Piece → SpecPiece
  | .lit c h => .lit c h
  | .field f => .field f [] (.inl rfl)

def patternText (pieces : List Piece) : List Nat := pieces.flatMap Piece.text

theorem patternText_plain (pieces : List Piece) : patternText pieces = specText (pieces.map Piece.plain) := by
  unfold patternText specText
  rw [List.flatMap_map]
  congr 1
  funext p
  cases p with
  | lit c h => rfl
  | field f => simp [Piece.text, Piece.plain, SpecPiece.text]

/-! ## Formatting -/

theorem format_body (dict : List (List Nat × PatVal)) (rest : List Nat) : ∀ (b acc : List Nat), (∀ c ∈ b, c ≠ 123 ∧ c ≠ 125) →
    formatGo dict (.field acc) (b ++ [125] ++ rest) =
      match replaceField dict (acc ++ b) with
      | none => none
      | some v => (formatGo dict .text rest).map (v ++ ·)
  | [], acc, _ => by
    rw [List.nil_append, List.singleton_append, formatGo, if_neg (by decide), if_pos rfl, List.append_nil]
    rfl
  | c :: b, acc, h => by
    have hc := h c (by simp)
    rw [List.cons_append, List.cons_append, formatGo, if_neg hc.1, if_neg hc.2, format_body dict rest b _ fun c hc => h c (by simp [hc])]
    rw [List.append_assoc]
    rfl

theorem format_field (dict : List (List Nat × PatVal)) (b rest : List Nat) (hb : ∀ c ∈ b, c ≠ 123 ∧ c ≠ 125) (hne : b ≠ []) :
    formatGo dict .text ([123] ++ b ++ [125] ++ rest) =
      match replaceField dict b with
      | none => none
      | some v => (formatGo dict .text rest).map (v ++ ·) := by
  obtain ⟨c, b', rfl⟩ := List.exists_cons_of_ne_nil hne
  have hc := hb c (by simp)
  rw [show [123] ++ c :: b' ++ [125] ++ rest = 123 :: c :: (b' ++ [125] ++ rest) by simp, formatGo, if_pos rfl, formatGo, if_neg hc.1, if_neg hc.2,
    format_body dict rest b' _ fun c hc => hb c (by simp [hc])]
  rfl

theorem time_of_day (start : Int) : start / 100 / 86400 = start / 8640000 ∧ start / 100 % 86400 / 3600 = start / 360000 % 24 ∧
    start / 100 % 3600 / 60 = start / 6000 % 60 := by omega

theorem replaceField_fix (row : StationRow) (fmt : List Nat) (start : Int) (f : NField) (spec : List Nat) (h) 
    (hs : (Piece.field f).plain.fix = .field f spec h) : replaceField (nameDict row fmt start) (f.text ++ spec) = some (f.value row fmt start) := by
  obtain ⟨e1, e2, e3⟩ := time_of_day start
  cases f <;> (cases hs; unfold nameDict replaceField; dsimp only; rw [e1, e2, e3]; rfl)

theorem plain_fix_field (f : NField) : ∃ spec h, (Piece.field f).plain.fix = .field f spec h := by
  cases f <;> exact ⟨_, _, rfl⟩

theorem format_fixed (row : StationRow) (fmt : List Nat) (start : Int) : ∀ pieces : List Piece,
    pyFormat (nameDict row fmt start) (specText ((pieces.map Piece.plain).map SpecPiece.fix)) = some (nameOf pieces row fmt start)
  | [] => rfl
  | p :: pieces => by
    have ih := format_fixed row fmt start pieces
    unfold pyFormat specText nameOf at ih ⊢
    rw [List.map_cons, List.map_cons, List.flatMap_cons, List.flatMap_cons]
    cases p with
    | lit c h =>
      rw [show ((Piece.lit c h).plain.fix).text = [c] from rfl, List.singleton_append, formatGo, if_neg h.1, if_neg h.2, ih]
      rfl
    | field f =>
      obtain ⟨spec, h, hs⟩ := plain_fix_field f
      have hv := replaceField_fix row fmt start f spec h hs
      rw [hs, SpecPiece.text]
      have hb : ∀ c ∈ f.text ++ spec, c ≠ 123 ∧ c ≠ 125 := by
        intro c hc
        rcases List.mem_append.mp hc with hc | hc
        · have := (field_letters f).2 c hc; omega
        · rcases h with rfl | ⟨w, hw, rfl⟩
          · simp at hc
          · have := isDigit_iff.mp hw
            simp only [List.mem_cons, List.not_mem_nil, or_false] at hc
            omega
      rw [List.append_assoc [123], format_field _ _ _ hb (by simp [(field_letters f).1]), hv, ih]
      rfl

/-- **C68, names.** For every pattern made of characters other than braces and of fields, and however often `_fix_file_name_digits` has been
applied before: the name is the pattern with each field replaced by its value, with leading zeros. -/
theorem C68_name (pieces : List Piece) (row : StationRow) (fmt : List Nat) (start : Int) :
    pyFormat (nameDict row fmt start) (fixDigits (patternText pieces)) = some (nameOf pieces row fmt start) ∧
    fixDigits (fixDigits (patternText pieces)) = fixDigits (patternText pieces) := by
  rw [patternText_plain, fixDigits_text]
  refine ⟨format_fixed row fmt start pieces, ?_⟩
  rw [fixDigits_text, List.map_map]
  congr 2
  funext p
  exact fix_fix p

/-! ## The loop -/

/-- The name at the end of a path has the serial number as third of its parts between dots. -/
def HasSN (path sn : List Nat) : Prop :=
  ∃ pre base a b rest, (path = base ∨ path = pre ++ [47] ++ base) ∧ 47 ∉ base ∧ base = a ++ [46] ++ b ++ [46] ++ sn ++ rest ∧
    46 ∉ a ∧ 46 ∉ b ∧ 46 ∉ sn ∧ (rest = [] ∨ rest.head? = some 46)

theorem pySplit_ne (c : Nat) (l : List Nat) : pySplit c l ≠ [] := by
  cases l with
  | nil => simp [pySplit]
  | cons x l =>
    rw [pySplit]
    split_ifs
    · simp
    · split <;> simp

theorem pySplit_word {c : Nat} : ∀ (w : List Nat), c ∉ w → pySplit c w = [w]
  | [], _ => rfl
  | x :: w, h => by
    rw [pySplit, if_neg (fun e => h (by simp [e])), pySplit_word w fun hw => h (by simp [hw])]

theorem pySplit_append {c : Nat} : ∀ (w rest : List Nat), c ∉ w → pySplit c (w ++ [c] ++ rest) = w :: pySplit c rest
  | [], rest, _ => by rw [List.nil_append, List.singleton_append, pySplit, if_pos rfl]
  | x :: w, rest, h => by
    rw [List.cons_append, List.cons_append, pySplit, if_neg (fun e => h (by simp [e])), pySplit_append w rest fun hw => h (by simp [hw])]

theorem pySplit_last {c : Nat} : ∀ (pre base : List Nat), c ∉ base → (pySplit c (pre ++ [c] ++ base)).getLast? = some base
  | [], base, h => by
    rw [List.nil_append, List.singleton_append, pySplit, if_pos rfl, pySplit_word base h]
    rfl
  | x :: pre, base, h => by
    have ih := pySplit_last pre base h
    rw [List.cons_append, List.cons_append, pySplit]
    obtain ⟨w, ws, hw⟩ := List.exists_cons_of_ne_nil (pySplit_ne c (pre ++ [c] ++ base))
    split_ifs with hx
    · rw [hw] at ih ⊢
      rw [List.getLast?_cons_cons, ih]
    · rw [hw] at ih ⊢
      cases ws with
      | nil =>
        -- a word before the separator gives at least two parts
        exfalso
        have : ∀ l r : List Nat, 2 ≤ (pySplit c (l ++ [c] ++ r)).length := by
          intro l r
          induction l with
          | nil =>
            rw [List.nil_append, List.singleton_append, pySplit, if_pos rfl, List.length_cons]
            have := List.length_pos_of_ne_nil (pySplit_ne c r)
            omega
          | cons y l ih =>
            rw [List.cons_append, List.cons_append, pySplit]
            split_ifs
            · rw [List.length_cons]; omega
            · split
              · rename_i h0; rw [h0] at ih; simp at ih
              · rename_i h0; rw [h0] at ih; simpa using ih
        have := this pre base
        rw [hw] at this
        simp at this
      | cons v vs =>
        rw [List.getLast?_cons_cons] at ih ⊢
        exact ih

theorem nameSN_of {path sn : List Nat} (h : HasSN path sn) : nameSN path = some sn := by
  obtain ⟨pre, base, a, b, rest, hp, hbase, hb, ha, hb', hsn, hr⟩ := h
  unfold nameSN
  have h1 : (pySplit 47 path).getLastD [] = base := by
    rw [List.getLastD_eq_getLast?]
    rcases hp with rfl | rfl
    · rw [pySplit_word _ hbase]; rfl
    · rw [pySplit_last _ _ hbase]; rfl
  rw [h1, hb]
  rw [show a ++ [46] ++ b ++ [46] ++ sn ++ rest = a ++ [46] ++ (b ++ [46] ++ (sn ++ rest)) by simp, pySplit_append _ _ ha, pySplit_append _ _ hb']
  rcases hr with rfl | hr
  · rw [List.append_nil, pySplit_word _ hsn]
    rfl
  · cases rest with
    | nil => simp at hr
    | cons x rest =>
      simp only [List.head?_cons, Option.some.injEq] at hr
      rw [hr, show sn ++ 46 :: rest = sn ++ [46] ++ rest by simp, pySplit_append _ _ hsn]
      rfl

theorem rowFor_find (table : List StationRow) (sn : List Nat) : rowFor table sn = table.find? fun r => r.sn = sn := by
  unfold rowFor
  rw [List.head?_filter]

theorem earliest_of {st : List Trace} {t : Int} (h1 : ∃ tr ∈ st, tr.start = t) (h2 : ∀ tr ∈ st, t ≤ tr.start) : earliest st = some t := by
  cases st with
  | nil => simp at h1
  | cons tr l =>
    have key : ∀ (l : List Trace) (m : Int), (l.foldl (fun t tr => min t tr.start) m ≤ m) ∧
        (∀ tr ∈ l, l.foldl (fun t tr => min t tr.start) m ≤ tr.start) ∧
        (l.foldl (fun t tr => min t tr.start) m = m ∨ ∃ tr ∈ l, l.foldl (fun t tr => min t tr.start) m = tr.start) := by
      intro l
      induction l with
      | nil => intro m; simp
      | cons x l ih =>
        intro m
        obtain ⟨i1, i2, i3⟩ := ih (min m x.start)
        rw [List.foldl_cons]
        refine ⟨by omega, ?_, ?_⟩
        · intro y hy
          rcases List.mem_cons.mp hy with rfl | hy
          · omega
          · exact i2 y hy
        · rcases i3 with i3 | ⟨y, hy, i3⟩
          · rcases le_total m x.start with hm | hm
            · left; omega
            · right; exact ⟨x, by simp, by omega⟩
          · right; exact ⟨y, by simp [hy], i3⟩
    obtain ⟨k1, k2, k3⟩ := key l tr.start
    rw [earliest]
    congr 1
    obtain ⟨x, hx, rfl⟩ := h1
    apply le_antisymm
    · rcases List.mem_cons.mp hx with rfl | hx
      · exact k1
      · exact k2 x hx
    · rcases k3 with k3 | ⟨y, hy, k3⟩
      · rw [k3]; exact h2 tr (by simp)
      · rw [k3]; exact h2 y (by simp [hy])

/-- What is written for a file: under the name that the pattern gives for the codes of the first row with its serial number and the start of
its earliest trace, the same traces with these codes. -/
def renamedAs (table : List StationRow) (dir fmt : List Nat) (pieces : List Piece) (sn : List Nat) (t1 : Int) (stream : List Trace) :
    Option (List Nat × Renamed) :=
  (table.find? fun r => r.sn = sn).map fun row =>
    (dir ++ bytes "/" ++ nameOf pieces row fmt t1, ⟨row.network, row.station, row.location, stream⟩)

/-- **C68, renaming.** For every table, every pattern made of characters and fields and all files with a serial number in their names:
renaming comes to its end, and writes exactly the files whose serial number is in the table, in order, each under the name the pattern gives,
with the codes of the first row for its serial number, and with its samples unchanged. Files of other instruments are skipped. -/
theorem C68_renamed (table : List StationRow) (dir fmt : List Nat) (pieces : List Piece) (files : List InFile) (hne : files ≠ [])
    (sn : InFile → List Nat) (t1 : InFile → Int) (hsn : ∀ f ∈ files, HasSN f.path (sn f))
    (ht : ∀ f ∈ files, (∃ tr ∈ f.stream, tr.start = t1 f) ∧ ∀ tr ∈ f.stream, t1 f ≤ tr.start) :
    renameFiles table dir fmt (patternText pieces) files =
      (files.filterMap fun f => renamedAs table dir fmt pieces (sn f) (t1 f) f.stream, true) := by
  unfold renameFiles
  rw [if_neg hne]
  have key : ∀ (files : List InFile) (pat : List Nat), (pat = patternText pieces ∨ pat = fixDigits (patternText pieces)) →
      (∀ f ∈ files, HasSN f.path (sn f)) → (∀ f ∈ files, (∃ tr ∈ f.stream, tr.start = t1 f) ∧ ∀ tr ∈ f.stream, t1 f ≤ tr.start) →
      renameLoop table dir fmt pat files = (files.filterMap fun f => renamedAs table dir fmt pieces (sn f) (t1 f) f.stream, true) := by
    intro files
    induction files with
    | nil => intro pat _ _ _; rfl
    | cons f files ih =>
      intro pat hpat h1 h2
      have ih' := fun p hp => ih p hp (fun f hf => h1 f (by simp [hf])) (fun f hf => h2 f (by simp [hf]))
      rw [renameLoop, nameSN_of (h1 f (by simp))]
      simp only
      rw [rowFor_find, List.filterMap_cons]
      unfold renamedAs at ih' ⊢
      cases hrow : table.find? (fun r => r.sn = sn f) with
      | none => exact ih' pat hpat
      | some row =>
        simp only [Option.map_some]
        rw [earliest_of (h2 f (by simp)).1 (h2 f (by simp)).2]
        simp only
        have hfix : fixDigits pat = fixDigits (patternText pieces) := by
          rcases hpat with rfl | rfl
          · rfl
          · exact (C68_name pieces row fmt 0).2
        rw [hfix, (C68_name pieces row fmt (t1 f)).1]
        simp only
        rw [ih' _ (.inr rfl)]
  exact key files _ (.inl rfl) hsn ht

/-! ## Nothing is overwritten -/

/-- The pieces of the default pattern. -/
def defaultPieces : List Piece :=
  [.field .year, .lit 45 (by decide), .field .mon, .lit 45 (by decide), .field .day, .lit 84 (by decide), .field .hour, .lit 95 (by decide),
   .field .min, .lit 95 (by decide), .field .sec, .lit 46 (by decide), .field .net, .lit 46 (by decide), .field .sta, .lit 46 (by decide),
   .field .loc, .lit 46 (by decide), .field .chan, .lit 46 (by decide), .field .fmt]

theorem defaultPattern_eq : defaultPattern = patternText defaultPieces := by decide +kernel

/-- The identifier of the traces of a row. -/
def rowId (row : StationRow) : List Nat := row.network ++ bytes "." ++ row.station ++ bytes "." ++ row.location ++ bytes ".HDF"

theorem nameOf_default (row : StationRow) (fmt : List Nat) (start : Int) :
    nameOf defaultPieces row fmt start ++ bytes "." = convertedName (rowId row ++ bytes "." ++ fmt) [] start := by
  obtain ⟨e1, e2, e3⟩ := time_of_day start
  unfold nameOf defaultPieces convertedName rowId
  simp only [e1, e2, e3, List.flatMap_cons, List.flatMap_nil, NField.value, bytes, lower, List.map_nil, List.append_nil, List.append_assoc]
  rfl

theorem dots_split {a b x y : List Nat} (ha : 46 ∉ a) (hb : 46 ∉ b) (h : a ++ (bytes "." ++ x) = b ++ (bytes "." ++ y)) : a = b ∧ x = y := by
  have h' : a ++ [46] ++ x = b ++ [46] ++ y := by
    simpa [show bytes "." = [46] from rfl] using h
  induction a generalizing b with
  | nil =>
    cases b with
    | nil => simpa using h'
    | cons z b =>
      simp only [List.nil_append, List.cons_append, List.cons.injEq] at h'
      exact absurd (by rw [← h'.1]; simp) hb
  | cons w a ih =>
    cases b with
    | nil =>
      simp only [List.nil_append, List.cons_append, List.cons.injEq] at h'
      exact absurd (by rw [h'.1]; simp) ha
    | cons z b =>
      simp only [List.cons_append, List.cons.injEq] at h'
      obtain ⟨i1, i2⟩ := ih (b := b) (fun hh => ha (by simp [hh])) (fun hh => hb (by simp [hh]))
        (by simpa [show bytes "." = [46] from rfl] using h'.2) h'.2
      exact ⟨by rw [h'.1, i1], i2⟩

/-- With the default pattern the name determines second and codes. -/
theorem default_injective {r s : StationRow} {fmt : List Nat} {a b : Int} (ha : Datable a) (hb : Datable b)
    (hr : 46 ∉ r.network ∧ 46 ∉ r.station ∧ 46 ∉ r.location) (hs : 46 ∉ s.network ∧ 46 ∉ s.station ∧ 46 ∉ s.location)
    (h : nameOf defaultPieces r fmt a = nameOf defaultPieces s fmt b) :
    a / 100 = b / 100 ∧ r.network = s.network ∧ r.station = s.station ∧ r.location = s.location := by
  have h1 : nameOf defaultPieces r fmt a ++ bytes "." = nameOf defaultPieces s fmt b ++ bytes "." := by rw [h]
  rw [nameOf_default, nameOf_default] at h1
  obtain ⟨e, h2⟩ := convertedName_split ha hb h1
  unfold rowId at h2
  simp only [List.append_assoc] at h2
  obtain ⟨e1, h2⟩ := dots_split hr.1 hs.1 h2
  obtain ⟨e2, h2⟩ := dots_split hr.2.1 hs.2.1 h2
  rw [show bytes ".HDF" = bytes "." ++ bytes "HDF" from rfl] at h2
  simp only [List.append_assoc] at h2
  obtain ⟨e3, h2⟩ := dots_split hr.2.2 hs.2.2 h2
  exact ⟨e, e1, e2, e3⟩

theorem writeAll_nodup {α : Type} (d : Dir α) : ∀ (ws : List (List Nat × α)), (ws.map Prod.fst).Nodup → ∀ w ∈ ws, d.writeAll ws w.1 = some w.2 := by
  intro ws hnd w hw
  rw [writeAll_get]
  have : ws.filter (fun v => decide (v.1 = w.1)) = [w] := by
    induction ws with
    | nil => simp at hw
    | cons v ws ih =>
      rw [List.map_cons, List.nodup_cons] at hnd
      rcases List.mem_cons.mp hw with rfl | hw
      · rw [List.filter_cons_of_pos (by simp), List.filter_eq_nil_iff.mpr]
        intro x hx
        have : x.1 ≠ w.1 := fun e => hnd.1 (by rw [← e]; exact List.mem_map_of_mem hx)
        simpa using this
      · rw [List.filter_cons_of_neg, ih hnd.2 hw]
        have : v.1 ≠ w.1 := fun e => hnd.1 (by rw [e]; exact List.mem_map_of_mem hw)
        simpa using this
  rw [this]
  rfl

/-- Characters of the text of a number. -/
theorem padNum_digits (w n : Nat) : ∀ c ∈ padNum w n, 48 ≤ c ∧ c ≤ 57 := by
  intro c hc
  unfold padNum zeroPad at hc
  rcases List.mem_append.mp hc with hc | hc
  · rw [List.mem_replicate] at hc; omega
  · exact isDigit_iff.mp (natStr_digits n c hc)

/-- A converted file carries its serial number. -/
theorem convertedName_hasSN {pre sn fmt : List Nat} {start : Int} (h46 : 46 ∉ sn) (h47 : 47 ∉ sn) (hf : 47 ∉ fmt) :
    HasSN (pre ++ bytes "/" ++ convertedName (bytes "." ++ sn ++ bytes "..HDF") fmt start) sn := by
  let t := start / 100
  let d := dateOfDay (t / 86400)
  let a := padNum 4 d.year.toNat ++ bytes "-" ++ padNum 2 d.month.toNat ++ bytes "-" ++ padNum 2 d.day.toNat ++ bytes "T" ++
    padNum 2 (t % 86400 / 3600).toNat ++ bytes "_" ++ padNum 2 (t % 3600 / 60).toNat ++ bytes "_" ++ padNum 2 (t % 60).toNat
  have ha : ∀ c ∈ a, c ≠ 46 ∧ c ≠ 47 := by
    intro c hc
    simp only [a, List.mem_append] at hc
    rcases hc with (((((((((hc | hc) | hc) | hc) | hc) | hc) | hc) | hc) | hc) | hc) | hc
    all_goals first
      | (have := padNum_digits _ _ c hc; omega)
      | exact (show ∀ c ∈ bytes "-", c ≠ 46 ∧ c ≠ 47 by decide) c hc
      | exact (show ∀ c ∈ bytes "T", c ≠ 46 ∧ c ≠ 47 by decide) c hc
      | exact (show ∀ c ∈ bytes "_", c ≠ 46 ∧ c ≠ 47 by decide) c hc
  have hname : convertedName (bytes "." ++ sn ++ bytes "..HDF") fmt start = a ++ bytes "." ++ bytes "." ++ sn ++ bytes "..HDF." ++ lower fmt := by
    unfold convertedName
    simp only [a, List.append_assoc]
    rfl
  refine ⟨pre, convertedName (bytes "." ++ sn ++ bytes "..HDF") fmt start, a, [], bytes "..HDF." ++ lower fmt, .inr rfl, ?_, ?_, ?_, by simp, h46,
    .inr rfl⟩
  · rw [hname]
    simp only [List.mem_append, not_or]
    refine ⟨⟨⟨⟨⟨fun h => (ha 47 h).2 rfl, by decide⟩, by decide⟩, h47⟩, by decide⟩, ?_⟩
    intro h
    unfold lower at h
    obtain ⟨c, hc, h⟩ := List.mem_map.mp h
    split_ifs at h
    · omega
    · exact hf (by rw [← h]; exact hc)
  · rw [hname]
    simp [show bytes "." = [46] from rfl]
  · exact fun h => (ha 46 h).1 rfl

/-- **C68, nothing lost.** If the files are named as `convert` names them, the table gives different codes to different instruments and
the default pattern is used, then no two files are written under the same name: whatever was in the output directory before, afterwards it
holds every file whose serial number is in the table, with its samples and the codes of its instrument. -/
theorem C68_nothing_lost (table : List StationRow) (dir fmt pre fmt0 : List Nat) (files : List InFile) (hne : files ≠ [])
    (sn : InFile → List Nat) (tr : InFile → Trace) (hfmt : 47 ∉ fmt0)
    (hfiles : ∀ f ∈ files, f.stream = [tr f] ∧ Datable (tr f).start ∧ 46 ∉ sn f ∧ 47 ∉ sn f ∧
      f.path = pre ++ bytes "/" ++ convertedName (bytes "." ++ sn f ++ bytes "..HDF") fmt0 (tr f).start)
    (hnd : (files.map InFile.path).Nodup)
    (hdots : ∀ r ∈ table, 46 ∉ r.network ∧ 46 ∉ r.station ∧ 46 ∉ r.location)
    (hcodes : ∀ r ∈ table, ∀ s ∈ table, r.network = s.network → r.station = s.station → r.location = s.location → r.sn = s.sn)
    (before : Dir Renamed) :
    ∃ ws, renameFiles table dir fmt defaultPattern files = (ws, true) ∧ (ws.map Prod.fst).Nodup ∧
      ∀ f ∈ files, ∀ row, (table.find? fun r => r.sn = sn f) = some row →
        before.writeAll ws (dir ++ bytes "/" ++ nameOf defaultPieces row fmt (tr f).start) =
          some ⟨row.network, row.station, row.location, f.stream⟩ := by
  rw [defaultPattern_eq]
  have h := C68_renamed table dir fmt defaultPieces files hne sn (fun f => (tr f).start)
    (fun f hf => by
      obtain ⟨_, _, h1, h2, h3⟩ := hfiles f hf
      rw [h3]
      exact convertedName_hasSN h1 h2 hfmt)
    (fun f hf => by
      rw [(hfiles f hf).1]
      simp)
  have hnodup : ((files.filterMap fun f => renamedAs table dir fmt defaultPieces (sn f) (tr f).start f.stream).map Prod.fst).Nodup := by
    rw [List.Nodup, List.pairwise_map, List.pairwise_filterMap]
    have hp : files.Pairwise fun f g => f.path ≠ g.path := List.pairwise_map.mp hnd
    refine hp.imp_of_mem ?_
    intro f g hf hg hfg x hx y hy hxy
    unfold renamedAs at hx hy
    obtain ⟨r, hr, rfl⟩ := Option.map_eq_some_iff.mp hx
    obtain ⟨s, hs, rfl⟩ := Option.map_eq_some_iff.mp hy
    have hr1 : r.sn = sn f := by simpa using List.find?_some hr
    have hs1 : s.sn = sn g := by simpa using List.find?_some hs
    have hr2 := List.mem_of_find?_eq_some hr
    have hs2 := List.mem_of_find?_eq_some hs
    simp only at hxy
    have hxy := List.append_cancel_left hxy
    obtain ⟨e1, e2, e3, e4⟩ := default_injective (hfiles f hf).2.1 (hfiles g hg).2.1 (hdots r hr2) (hdots s hs2) hxy
    have e5 := hcodes r hr2 s hs2 e2 e3 e4
    refine hfg ?_
    rw [(hfiles f hf).2.2.2.2, (hfiles g hg).2.2.2.2, ← hr1, ← hs1, e5,
      (C36_same_name_iff_partial _ fmt0 _ _ (hfiles f hf).2.1 (hfiles g hg).2.1).mpr e1]
  refine ⟨_, h, hnodup, ?_⟩
  intro f hf row hrow
  have hmem : (dir ++ bytes "/" ++ nameOf defaultPieces row fmt (tr f).start, (⟨row.network, row.station, row.location, f.stream⟩ : Renamed)) ∈
      files.filterMap fun f => renamedAs table dir fmt defaultPieces (sn f) (tr f).start f.stream := by
    rw [List.mem_filterMap]
    refine ⟨f, hf, ?_⟩
    unfold renamedAs
    rw [hrow]
    rfl
  exact writeAll_nodup before _ hnodup _ hmem

/-- If everything is written under one name, only the last remains. -/
theorem writeAll_same {α : Type} (name : List Nat) (ws : List (List Nat × α)) (h : ∀ w ∈ ws, w.1 = name) (x : List Nat) (c : α)
    (hx : Dir.writeAll (fun _ => none) ws x = some c) : ∃ w, ws.getLast? = some w ∧ c = w.2 := by
  rw [writeAll_get] at hx
  by_cases hn : x = name
  · have hf : ws.filter (fun w => decide (w.1 = x)) = ws := by
      rw [List.filter_eq_self]
      intro w hw
      simpa [hn] using h w hw
    rw [hf] at hx
    cases hl : ws.getLast? with
    | none => rw [hl] at hx; simp at hx
    | some w => rw [hl] at hx; simp only [Option.some.injEq] at hx; exact ⟨w, rfl, hx.symm⟩
  · have hf : ws.filter (fun w => decide (w.1 = x)) = [] := by
      rw [List.filter_eq_nil_iff]
      intro w hw
      rw [h w hw]
      simpa using fun e : name = x => hn e.symm
    rw [hf] at hx
    simp at hx

/-- **C68, violated for tables that give two instruments the same codes.** Then a file of the second instrument silently replaces the file of
the first that starts in the same second: after renaming both into an empty directory, all there is are the samples of the second. -/
theorem C68_violated_shared_codes (r s : StationRow) (dir fmt pre fmt0 : List Nat) (a b : Trace) (hsn : r.sn ≠ s.sn)
    (hcodes : r.network = s.network ∧ r.station = s.station ∧ r.location = s.location) (hr : 46 ∉ r.sn ∧ 47 ∉ r.sn)
    (hs : 46 ∉ s.sn ∧ 47 ∉ s.sn) (hf : 47 ∉ fmt0) (hab : a.start / 100 = b.start / 100) :
    ∃ ws, renameFiles [r, s] dir fmt defaultPattern
        [⟨pre ++ bytes "/" ++ convertedName (bytes "." ++ r.sn ++ bytes "..HDF") fmt0 a.start, [a]⟩,
         ⟨pre ++ bytes "/" ++ convertedName (bytes "." ++ s.sn ++ bytes "..HDF") fmt0 b.start, [b]⟩] = (ws, true) ∧ ws.length = 2 ∧
      ∀ x c, Dir.writeAll (fun _ => none) ws x = some c → c.stream = [b] := by
  rw [defaultPattern_eq]
  have hname : nameOf defaultPieces r fmt a.start = nameOf defaultPieces s fmt b.start := by
    have e : nameOf defaultPieces r fmt a.start ++ bytes "." = nameOf defaultPieces s fmt b.start ++ bytes "." := by
      rw [nameOf_default, nameOf_default]
      unfold convertedName rowId
      rw [hab, hcodes.1, hcodes.2.1, hcodes.2.2]
    exact List.append_cancel_right e
  by_cases hpath : (⟨pre ++ bytes "/" ++ convertedName (bytes "." ++ r.sn ++ bytes "..HDF") fmt0 a.start, [a]⟩ : InFile) =
      ⟨pre ++ bytes "/" ++ convertedName (bytes "." ++ s.sn ++ bytes "..HDF") fmt0 b.start, [b]⟩
  · -- the serial numbers are in the names
    have h1 := nameSN_of (convertedName_hasSN (pre := pre) (start := a.start) hr.1 hr.2 hf)
    have h2 := nameSN_of (convertedName_hasSN (pre := pre) (start := b.start) hs.1 hs.2 hf)
    rw [(InFile.mk.inj hpath).1, h2] at h1
    exact absurd (Option.some.inj h1).symm hsn
  · generalize hF : (⟨pre ++ bytes "/" ++ convertedName (bytes "." ++ r.sn ++ bytes "..HDF") fmt0 a.start, [a]⟩ : InFile) = F at hpath ⊢
    generalize hG : (⟨pre ++ bytes "/" ++ convertedName (bytes "." ++ s.sn ++ bytes "..HDF") fmt0 b.start, [b]⟩ : InFile) = G at hpath ⊢
    have hGF : ¬ G = F := fun e => hpath e.symm
    have h := C68_renamed [r, s] dir fmt defaultPieces [F, G] (by simp) (fun f => if f = F then r.sn else s.sn)
      (fun f => if f = F then a.start else b.start)
      (by
        intro f hf'
        simp only [List.mem_cons, List.not_mem_nil, or_false] at hf'
        rcases hf' with rfl | rfl
        · rw [if_pos rfl, ← hF]; exact convertedName_hasSN hr.1 hr.2 hf
        · rw [if_neg hGF, ← hG]; exact convertedName_hasSN hs.1 hs.2 hf)
      (by
        intro f hf'
        simp only [List.mem_cons, List.not_mem_nil, or_false] at hf'
        rcases hf' with rfl | rfl
        · rw [if_pos rfl, ← hF]; simp
        · rw [if_neg hGF, ← hG]; simp)
    refine ⟨_, h, ?_⟩
    have hws : ([F, G].filterMap fun f => renamedAs [r, s] dir fmt defaultPieces (if f = F then r.sn else s.sn)
        (if f = F then a.start else b.start) f.stream) =
        [(dir ++ bytes "/" ++ nameOf defaultPieces r fmt a.start, ⟨r.network, r.station, r.location, F.stream⟩),
         (dir ++ bytes "/" ++ nameOf defaultPieces s fmt b.start, ⟨s.network, s.station, s.location, G.stream⟩)] := by
      simp [renamedAs, hGF, hsn]
    rw [hws]
    refine ⟨rfl, ?_⟩
    intro x c hx
    obtain ⟨w, hw, hc⟩ := writeAll_same (dir ++ bytes "/" ++ nameOf defaultPieces s fmt b.start) _ (by
      intro w hw
      simp only [List.mem_cons, List.not_mem_nil, or_false] at hw
      rcases hw with rfl | rfl
      · simp only; rw [hname]
      · rfl) x c hx
    simp only [List.getLast?_cons_cons, List.getLast?_singleton, Option.some.injEq] at hw
    rw [hc, ← hw, ← hG]

/-- **C68, violated for patterns without the time of the day.** Of all files of one instrument that start on the same day only the last
remains. -/
theorem C68_violated_daily_pattern (table : List StationRow) (dir fmt : List Nat) (pieces : List Piece) (files : List InFile) (hne : files ≠ [])
    (sn : List Nat) (row : StationRow) (day : Int) (t1 : InFile → Int) (hrow : (table.find? fun r => r.sn = sn) = some row)
    (hpieces : ∀ f, Piece.field f ∈ pieces → f ≠ .hour ∧ f ≠ .min ∧ f ≠ .sec) (hsn : ∀ f ∈ files, HasSN f.path sn)
    (ht : ∀ f ∈ files, ((∃ tr ∈ f.stream, tr.start = t1 f) ∧ ∀ tr ∈ f.stream, t1 f ≤ tr.start) ∧ t1 f / 8640000 = day) :
    ∃ ws, renameFiles table dir fmt (patternText pieces) files = (ws, true) ∧ ws.length = files.length ∧
      ∀ x c, Dir.writeAll (fun _ => none) ws x = some c → ∃ f, files.getLast? = some f ∧ c.stream = f.stream := by
  have h := C68_renamed table dir fmt pieces files hne (fun _ => sn) t1 hsn (fun f hf => (ht f hf).1)
  have hmap : (files.filterMap fun f => renamedAs table dir fmt pieces sn (t1 f) f.stream) = files.map fun f =>
      (dir ++ bytes "/" ++ nameOf pieces row fmt (t1 f), (⟨row.network, row.station, row.location, f.stream⟩ : Renamed)) := by
    rw [← List.filterMap_eq_map]
    congr 1
    funext f
    unfold renamedAs
    rw [hrow]
    rfl
  rw [hmap] at h
  refine ⟨_, h, List.length_map _, ?_⟩
  have hsame : ∀ a b : Int, a / 8640000 = b / 8640000 → nameOf pieces row fmt a = nameOf pieces row fmt b := by
    intro a b hab
    unfold nameOf
    refine List.flatMap_congr ?_
    intro p hp
    cases p with
    | lit c h => rfl
    | field f =>
      obtain ⟨h1, h2, h3⟩ := hpieces f hp
      cases f <;> simp_all [NField.value]
  intro x c hx
  obtain ⟨w, hw, hc⟩ := writeAll_same (dir ++ bytes "/" ++ nameOf pieces row fmt (8640000 * day)) _ (by
    intro w hw
    obtain ⟨f, hf, rfl⟩ := List.mem_map.mp hw
    simp only
    rw [hsame (t1 f) (8640000 * day) (by rw [(ht f hf).2]; omega)]) x c hx
  rw [List.getLast?_map] at hw
  obtain ⟨f, hf, rfl⟩ := Option.map_eq_some_iff.mp hw
  exact ⟨f, hf, by rw [hc]⟩

/-! ## Examples -/

def demoRow (sn station : String) : StationRow := ⟨bytes sn, bytes "XP", bytes station, bytes "01", .default⟩

/-- A converted file of one trace. -/
def demoInFile (sn : String) (start : Int) : InFile :=
  ⟨bytes "mseed" ++ bytes "/" ++ convertedName (bytes "." ++ bytes sn ++ bytes "..HDF") (bytes "mseed") start, [⟨start, [5]⟩]⟩

/-- The file of instrument 012 is renamed; the pattern has a field with three digits. -/
example : renameFiles [demoRow "012" "A"] (bytes "out") (bytes "sac") (patternText [.field .sta, .lit 46 (by decide), .field .jd])
    [demoInFile "012" 160000000042, demoInFile "099" 160000000042] =
      ([(bytes "out/A.257", ⟨bytes "XP", bytes "A", bytes "01", [⟨160000000042, [5]⟩]⟩)], true) := by
  decide +kernel

/-- The hypotheses of `C68_renamed` hold for these files. -/
example : renameFiles [demoRow "012" "A"] (bytes "out") (bytes "sac") defaultPattern [demoInFile "012" 160000000042, demoInFile "099" 160000000042] =
    ([(bytes "out/2020-09-13T12_26_40.XP.A.01.HDF.sac", ⟨bytes "XP", bytes "A", bytes "01", [⟨160000000042, [5]⟩]⟩)], true) := by
  rw [defaultPattern_eq, C68_renamed [demoRow "012" "A"] (bytes "out") (bytes "sac") defaultPieces
    [demoInFile "012" 160000000042, demoInFile "099" 160000000042] (by simp)
    (fun f => if f = demoInFile "012" 160000000042 then bytes "012" else bytes "099") (fun _ => 160000000042)
    (by
      intro f hf
      simp only [List.mem_cons, List.not_mem_nil, or_false] at hf
      rcases hf with rfl | rfl
      · rw [if_pos rfl]; exact convertedName_hasSN (by decide) (by decide) (by decide)
      · rw [if_neg (by decide +kernel)]; exact convertedName_hasSN (by decide) (by decide) (by decide))
    (by
      intro f hf
      simp only [List.mem_cons, List.not_mem_nil, or_false] at hf
      rcases hf with rfl | rfl <;> simp [demoInFile])]
  decide +kernel

/-- The hypotheses of `C68_nothing_lost` hold for three files of two instruments. -/
example (before : Dir Renamed) : ∃ ws, renameFiles [demoRow "012" "A", demoRow "013" "B"] (bytes "out") (bytes "mseed") defaultPattern
      [demoInFile "012" 160000000000, demoInFile "012" 160000360000, demoInFile "013" 160000000000] = (ws, true) ∧
    before.writeAll ws (bytes "out/2020-09-13T12_26_40.XP.B.01.HDF.mseed") = some ⟨bytes "XP", bytes "B", bytes "01", [⟨160000000000, [5]⟩]⟩ := by
  obtain ⟨ws, h1, _, h3⟩ := C68_nothing_lost [demoRow "012" "A", demoRow "013" "B"] (bytes "out") (bytes "mseed") (bytes "mseed") (bytes "mseed")
    [demoInFile "012" 160000000000, demoInFile "012" 160000360000, demoInFile "013" 160000000000] (by simp)
    (fun f => if f = demoInFile "013" 160000000000 then bytes "013" else bytes "012")
    (fun f => if f = demoInFile "012" 160000360000 then ⟨160000360000, [5]⟩ else ⟨160000000000, [5]⟩) (by decide)
    (by
      intro f hf
      simp only [List.mem_cons, List.not_mem_nil, or_false] at hf
      unfold Datable
      rcases hf with rfl | rfl | rfl <;> decide +kernel)
    (by decide +kernel) (by decide +kernel) (by decide +kernel) before
  refine ⟨ws, h1, ?_⟩
  have := h3 (demoInFile "013" 160000000000) (by simp) (demoRow "013" "B") (by decide +kernel)
  have e1 : bytes "out" ++ bytes "/" ++ nameOf defaultPieces (demoRow "013" "B") (bytes "mseed") 160000000000 =
    bytes "out/2020-09-13T12_26_40.XP.B.01.HDF.mseed" := by decide +kernel
  rw [if_neg (by decide +kernel), e1] at this
  exact this

/-- The hypotheses of `C68_violated_shared_codes` hold: both instruments are at station A, without location codes of their own. -/
example : ∃ ws, renameFiles [demoRow "012" "A", demoRow "013" "A"] (bytes "out") (bytes "mseed") defaultPattern
      [demoInFile "012" 160000000000, demoInFile "013" 160000000050] = (ws, true) ∧ ws.length = 2 ∧
    ∀ x c, Dir.writeAll (fun _ => none) ws x = some c → c.stream = [⟨160000000050, [5]⟩] :=
  C68_violated_shared_codes (demoRow "012" "A") (demoRow "013" "A") (bytes "out") (bytes "mseed") (bytes "mseed") (bytes "mseed") ⟨160000000000, [5]⟩
    ⟨160000000050, [5]⟩ (by decide) ⟨rfl, rfl, rfl⟩ (by decide) (by decide) (by decide) (by decide)

/-- The hypotheses of `C68_violated_daily_pattern` hold for `{sta}.{jd}` and two hours of one day. -/
example : ∃ ws, renameFiles [demoRow "012" "A"] (bytes "out") (bytes "mseed") (bytes "{sta}.{jd}")
      [demoInFile "012" 160000000000, demoInFile "012" 160000360000] = (ws, true) ∧ ws.length = 2 ∧
    ∀ x c, Dir.writeAll (fun _ => none) ws x = some c → ∃ f, f = demoInFile "012" 160000360000 ∧ c.stream = f.stream := by
  obtain ⟨ws, h1, h2, h3⟩ := C68_violated_daily_pattern [demoRow "012" "A"] (bytes "out") (bytes "mseed") [.field .sta, .lit 46 (by decide), .field .jd]
    [demoInFile "012" 160000000000, demoInFile "012" 160000360000] (by simp) (bytes "012") (demoRow "012" "A") 18518
    (fun f => if f = demoInFile "012" 160000000000 then 160000000000 else 160000360000) (by decide +kernel)
    (by
      intro f hf
      simp only [List.mem_cons, List.not_mem_nil, or_false, Piece.field.injEq, reduceCtorEq, false_or] at hf
      rcases hf with rfl | rfl <;> decide)
    (by
      intro f hf
      simp only [List.mem_cons, List.not_mem_nil, or_false] at hf
      rcases hf with rfl | rfl <;> exact convertedName_hasSN (by decide) (by decide) (by decide))
    (by
      intro f hf
      simp only [List.mem_cons, List.not_mem_nil, or_false] at hf
      rcases hf with rfl | rfl <;> decide +kernel)
  refine ⟨ws, h1, h2, fun x c hx => ?_⟩
  obtain ⟨f, hf, hc⟩ := h3 x c hx
  exact ⟨f, by simpa using hf.symm, hc⟩

end Gemlog
