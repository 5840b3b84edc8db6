import Verif.Model.OldReader
import Verif.Model.ReadSingle
import Verif.Spec.OldFormat
import Verif.Lemmas.Reference
import Mathlib.Data.Rat.Floor

/-! # Helper facts: the readers based on pandas -/

namespace Gemlog

/-! ## Lists -/

theorem mapM_some {α β : Type} {f : α → Option β} {g : α → β} : ∀ {l : List α}, (∀ x ∈ l, f x = some (g x)) →
    l.mapM f = some (l.map g) := by
  intro l
  induction l with
  | nil => intro _; rfl
  | cons x l ih =>
    intro h
    rw [List.mapM_cons, h x (by simp), ih (fun y hy => h y (by simp [hy]))]
    rfl

/-! ## The table -/

/-- What the last step makes of a table of good rows (helper). -/
theorem process_table {em rg : Bool} {table : Table} {offset R : Rat} {version : String} {ms : List Rat} {rows : List (Rat × TRow)}
    {dcol : Nat} {adc : List (Option Rat)} {md : List (List (Option Rat))} {gs : List GRaw}
    (hR : rolloverOf version = some R) (hms : correctedMillis R offset (table.rows.map TRow.saw) = some ms)
    (hrows : ms.zip table.rows = rows)
    (hdc : (if version ∈ ["0.8", "0.85"] then 2 else if table.isBytes = true then 2 else 1) = dcol)
    (hD : (rows.filter fun p => p.2.kind == .D) ≠ []) (hM : (rows.filter fun p => p.2.kind == .M) ≠ [])
    (h1 : (rows.filter fun p => p.2.kind == .D).mapM (fun p => (p.2.col dcol).toNumeric) = some adc)
    (h2 : (rows.filter fun p => p.2.kind == .M).mapM (fun p => (List.range (numMCols version - 1)).mapM
      fun j => (p.2.col (j + 2)).toNumeric) = some md)
    (h3 : (rows.filter fun p => p.2.kind == .G).mapM (fun p => gRow p.1 p.2) = some gs)
    (hg : rg = true → ∃ g ∈ gs, gpsInBounds g = true) :
    processData em table offset version rg = .ok
      ⟨((rows.filter fun p => p.2.kind == .D).map Prod.fst).zip
          (if version ∈ ["1.10", "0.9", "0.85C"] then cumsumNaN 0 adc else adc),
        ((rows.filter fun p => p.2.kind == .M).map Prod.fst).zip md, (gs.filter gpsInBounds).filterMap withTime⟩ := by
  unfold processData
  rw [hR]
  simp only
  rw [hms]
  simp only
  rw [hrows, hdc, if_neg (by rintro (h | h); exacts [hD h, hM h]), h1, h2]
  simp only
  have hgps : gpsTable em (rows.filter fun p => p.2.kind == .G) = some ((gs.filter gpsInBounds).filterMap withTime) ∨
      (gpsTable em (rows.filter fun p => p.2.kind == .G) = none ∧ gs.filter gpsInBounds = []) := by
    unfold gpsTable
    split
    · rename_i h
      right
      rw [h, List.mapM_nil] at h3
      refine ⟨rfl, ?_⟩
      rw [← Option.some.inj h3]; rfl
    · rw [h3]
      dsimp only
      by_cases h : gs.filter gpsInBounds = [] ∧ em = true
      · rw [if_pos h]; exact .inr ⟨rfl, h.1⟩
      · rw [if_neg h]; exact .inl rfl
  rcases hgps with h | ⟨h, h0⟩
  · rw [h]
  · rw [h]
    simp only
    have hrg : rg = false := by
      cases rg with
      | false => rfl
      | true =>
        obtain ⟨g, hg1, hg2⟩ := hg rfl
        have : g ∈ gs.filter gpsInBounds := List.mem_filter.mpr ⟨hg1, hg2⟩
        rw [h0] at this; simp at this
    rw [hrg, h0, if_neg (by simp)]
    rfl

/-! ## Lines and fields -/

theorem pdLinesGo_line : ∀ (body cur rest : List Nat), (∀ b ∈ body, b ≠ 10 ∧ b ≠ 13) →
    pdLinesGo cur (body ++ 10 :: rest) = (cur ++ body) :: pdLinesGo [] rest := by
  intro body
  induction body with
  | nil =>
    intro cur rest _
    rw [List.nil_append, List.append_nil, pdLinesGo]
    · simp
    · intro l h; simp at h
  | cons b body ih =>
    intro cur rest h
    have hb := h b (by simp)
    rw [List.cons_append, pdLinesGo, if_neg (by tauto), ih _ _ (fun x hx => h x (by simp [hx]))]
    · simp
    · intro l h2; exact absurd h2 hb.2

theorem pdLines_flat : ∀ (ls : List (List Nat)), (∀ l ∈ ls, ∀ b ∈ l, b < 128 ∧ b ≠ 10 ∧ b ≠ 13) →
    pdLines (ls.map fun l => l ++ [10]).flatten = ls ++ [[]] := by
  intro ls h
  unfold pdLines
  have hf : ((ls.map fun l => l ++ [10]).flatten.filter fun b => b < 128) = (ls.map fun l => l ++ [10]).flatten := by
    apply List.filter_eq_self.mpr
    intro b hb
    obtain ⟨x, hx, hbx⟩ := List.mem_flatten.mp hb
    obtain ⟨l, hl, rfl⟩ := List.mem_map.mp hx
    rcases List.mem_append.mp hbx with h1 | h1
    · simpa using (h l hl b h1).1
    · simp at h1; subst h1; rfl
  rw [hf]
  clear hf
  induction ls with
  | nil => rfl
  | cons l ls ih =>
    rw [List.map_cons, List.flatten_cons, List.append_assoc, List.singleton_append,
      pdLinesGo_line l [] _ (fun b hb => (h l (by simp) b hb).2), ih (fun x hx => h x (by simp [hx]))]
    rfl

/-- The fields of a line, if it becomes a row of the table (helper). -/
def bodyRow (n : Nat) (body : List Nat) : Option (List (List Nat)) :=
  if pdTrim body = [] then none
  else if (splitComma (pdTrim body)).length ≤ n then some (splitComma (pdTrim body)) else none

theorem pdRows_flat (n : Nat) (header ls : List (List Nat)) (hh : header.length = 6)
    (h : ∀ l ∈ header ++ ls, ∀ b ∈ l, b < 128 ∧ b ≠ 10 ∧ b ≠ 13) :
    pdRows n ((header ++ ls).map fun l => l ++ [10]).flatten = ls.filterMap (bodyRow n) := by
  unfold pdRows
  rw [pdLines_flat _ h, List.append_assoc, ← hh, List.drop_left]
  clear h
  induction ls with
  | nil => simp [pdTrim]
  | cons l ls ih =>
    rw [List.cons_append, List.map_cons, List.filterMap_cons]
    unfold bodyRow at ih ⊢
    by_cases h1 : pdTrim l = []
    · rw [List.filter_cons_of_neg (by simp [h1]), ih, if_pos h1]
    · rw [List.filter_cons_of_pos (by simp [h1]), List.map_cons, if_neg h1]
      by_cases h2 : (splitComma (pdTrim l)).length ≤ n
      · rw [List.filter_cons_of_pos (by simpa using h2), ih, if_pos h2]
      · rw [List.filter_cons_of_neg (by simpa using h2), ih, if_neg h2]

theorem splitCommaGo_first : ∀ (s cur : List Nat), ∃ f fs, splitCommaGo cur s = (cur ++ f) :: fs ∧
    (s = f ∨ ∃ r, s = f ++ 44 :: r) := by
  intro s
  induction s with
  | nil => intro cur; exact ⟨[], [], by simp [splitCommaGo], .inl rfl⟩
  | cons b s ih =>
    intro cur
    by_cases hb : b = 44
    · subst hb
      exact ⟨[], splitCommaGo [] s, by simp [splitCommaGo], .inr ⟨s, rfl⟩⟩
    · obtain ⟨f, fs, h1, h2⟩ := ih (cur ++ [b])
      refine ⟨b :: f, fs, by rw [splitCommaGo, if_neg hb, h1]; simp, ?_⟩
      rcases h2 with rfl | ⟨r, rfl⟩
      · exact .inl rfl
      · exact .inr ⟨r, rfl⟩

theorem pdTrim_split (s : List Nat) : ∃ pre, s = pre ++ pdTrim s ∧ ∀ b ∈ pre, b = 32 ∨ b = 9 := by
  refine ⟨s.takeWhile fun b => b == 32 || b == 9, by unfold pdTrim; rw [List.takeWhile_append_dropWhile], ?_⟩
  intro b hb
  have := List.mem_takeWhile_imp hb
  simpa using this

theorem pdTrim_cons {b : Nat} {l : List Nat} (h : b ≠ 32 ∧ b ≠ 9) : pdTrim (b :: l) = b :: l := by
  unfold pdTrim
  rw [List.dropWhile_cons_of_neg]
  simp [h]

theorem letterKind_some {c : Nat} {k : Kind} (h : letterKind c = some k) : c = 68 ∨ c = 71 ∨ c = 77 := by
  unfold letterKind at h
  split_ifs at h with h1 h2 h3 <;> tauto

theorem other_noRow {body : List Nat} (h : ¬ LooksLikeData body) (n : Nat) : (bodyRow n body).bind oldRow = none := by
  unfold bodyRow
  split_ifs with h1 h2
  · rfl
  · rw [Option.bind_some]
    obtain ⟨f, fs, e1, e2⟩ := splitCommaGo_first (pdTrim body) []
    rw [List.nil_append] at e1
    unfold splitComma
    rw [e1]
    cases f with
    | nil => rfl
    | cons c f =>
      cases f with
      | cons d f => rfl
      | nil =>
        rw [oldRow]
        cases hk : letterKind c with
        | none => rfl
        | some k =>
          exfalso
          apply h
          obtain ⟨pre, hp, hp2⟩ := pdTrim_split body
          rcases e2 with e2 | ⟨r, e2⟩
          · exact ⟨pre, c, [], by rw [← e2]; exact hp, hp2, letterKind_some hk, .inl rfl⟩
          · exact ⟨pre, c, 44 :: r, by rw [show c :: 44 :: r = pdTrim body by rw [e2]; rfl]; exact hp, hp2, letterKind_some hk,
              .inr ⟨r, rfl⟩⟩
  · rfl

theorem naValues_notNum : ∀ s ∈ naValues, pyFloat s = none := by
  decide +kernel

theorem pdCell_field (f : Field) : pdCell f.text = .num f.val := by
  unfold pdCell
  have h := pyFloat_field f
  rw [if_neg, h]
  intro hn
  rw [naValues_notNum _ hn] at h
  simp at h

/-! ## Old lines -/

/-- Kind and values of a data line (helper). -/
def OldLine.kind : OldLine → Option Kind
  | .sample .. => some .D
  | .fix .. => some .G
  | .status .. => some .M
  | .other _ => none

/-- The printed fields (helper). -/
def OldLine.fields : OldLine → List Field
  | .sample ms x => [.dec ms, .int x]
  | .fix ms lag yr mo day hr mn sec lat lon =>
    [.dec ms, .dec lag, .int yr, .int mo, .int day, .int hr, .int mn, .dec sec, .dec lat, .dec lon]
  | .status ms values => .dec ms :: values
  | .other _ => []

/-- The row of the table (helper). -/
def OldLine.trow (l : OldLine) : TRow :=
  ⟨l.kind.getD .D, (⌊l.count.getD 0⌋ : Int), (l.fields.map Field.val).map .num⟩

theorem statusValues_le (version : String) : statusValues version ≤ 11 := by
  unfold statusValues; split_ifs <;> omega

theorem old_body {version : String} {l : OldLine} (h : l.Valid version) {k : Kind} (hk : l.kind = some k) :
    (bodyRow 15 l.body).bind oldRow = some (k, l.fields.map fun f => pdCell f.text) := by
  have main : ∀ (c : Nat) (f : Field) (fs : List Field), fs.length ≤ 13 → letterKind c = some k →
      (bodyRow 15 (c :: 44 :: joinFields (f :: fs))).bind oldRow = some (k, (f :: fs).map fun f => pdCell f.text) := by
    intro c f fs hl hc
    have hc' := letterKind_some hc
    have hs : splitComma (c :: 44 :: joinFields (f :: fs)) = [c] :: (f :: fs).map Field.text := by
      rw [show c :: 44 :: joinFields (f :: fs) = [c] ++ 44 :: ([] ++ joinFields (f :: fs)) by simp, splitComma_comma,
        split_join f fs [] (by simp)]
      · rfl
      · intro b hb; simp at hb; omega
    unfold bodyRow
    rw [pdTrim_cons (by omega), hs, if_neg (by simp), if_pos (by simp; omega), Option.bind_some, oldRow, hc]
    simp
  cases l with
  | sample ms x => simp [OldLine.kind] at hk; subst hk; exact main 68 _ _ (by simp) (by decide)
  | fix => simp [OldLine.kind] at hk; subst hk; exact main 71 _ _ (by simp) (by decide)
  | status ms values =>
    simp [OldLine.kind] at hk; subst hk
    have := statusValues_le version
    have h' : values.length = statusValues version := h
    exact main 77 _ _ (by omega) (by decide)
  | other => simp [OldLine.kind] at hk

theorem old_plain {version : String} {l : OldLine} (h : l.Valid version) : ∀ b ∈ l.body, b < 128 ∧ b ≠ 10 ∧ b ≠ 13 := by
  have main : ∀ (c : Nat) (fs : List Field), c < 128 ∧ c ≠ 10 ∧ c ≠ 13 → ∀ b ∈ c :: 44 :: joinFields fs, b < 128 ∧ b ≠ 10 ∧ b ≠ 13 := by
    intro c fs hc b hb
    simp only [List.mem_cons] at hb
    rcases hb with rfl | rfl | hb
    · exact hc
    · decide
    · exact join_plain fs b hb
  cases l with
  | sample => exact main 68 _ (by decide)
  | fix => exact main 71 _ (by decide)
  | status => exact main 77 _ (by decide)
  | other body => intro b hb; have := h.1 b hb; exact ⟨this.1, this.2.1, this.2.2.1⟩

theorem count_kind (l : OldLine) : l.count.isSome = l.kind.isSome := by cases l <;> rfl

/-- The data lines (helper). -/
def oldData (es : List OldEvent) : List OldEvent := es.filter fun e => e.line.kind.isSome

theorem oldTimes_eq (es : List OldEvent) : oldTimes es = (oldData es).map OldEvent.T := by
  unfold oldTimes oldData
  simp only [count_kind]

theorem old_rows {version : String} : ∀ {es : List OldEvent}, (∀ e ∈ es, e.line.Valid version) →
    ((es.map fun e => e.line.body).filterMap (bodyRow 15)).filterMap oldRow
      = (oldData es).map fun e => (e.line.kind.getD .D, e.line.fields.map fun f => pdCell f.text) := by
  intro es
  induction es with
  | nil => intro _; rfl
  | cons e es ih =>
    intro h
    have ih := ih (fun x hx => h x (by simp [hx]))
    have he := h e (by simp)
    rw [List.filterMap_filterMap] at ih ⊢
    rw [List.map_cons, List.filterMap_cons, ih]
    unfold oldData
    cases hk : e.line.kind with
    | none =>
      rw [List.filter_cons_of_neg (by simp [hk])]
      have : ∃ body, e.line = .other body := by
        cases hl : e.line with
        | other body => exact ⟨body, rfl⟩
        | _ => rw [hl] at hk; simp [OldLine.kind] at hk
      obtain ⟨body, hb⟩ := this
      rw [hb] at he ⊢
      have : (bodyRow 15 (OldLine.other body).body).bind oldRow = none := other_noRow he.2 15
      rw [this]
    | some k =>
      rw [List.filter_cons_of_pos (by simp [hk]), old_body he hk, List.map_cons, hk]
      rfl

theorem old_trow {l : OldLine} {k : Kind} (hk : l.kind = some k) (hc : ∀ c, l.count = some c → 0 ≤ c) :
    oldBad (l.kind.getD .D, l.fields.map fun f => pdCell f.text) = false ∧
    oldTRow (l.kind.getD .D, l.fields.map fun f => pdCell f.text) = some l.trow := by
  have main : ∀ (ms : Dec) (fs : List Field), l.fields = .dec ms :: fs → l.count = some ms.val →
      oldBad (l.kind.getD .D, l.fields.map fun f => pdCell f.text) = false ∧
      oldTRow (l.kind.getD .D, l.fields.map fun f => pdCell f.text) = some l.trow := by
    intro ms fs hf hcc
    have h0 := hc _ hcc
    have e : (l.fields.map fun f => pdCell f.text) = (l.fields.map Field.val).map .num := by
      rw [List.map_map]
      apply List.map_congr_left
      intro f _
      exact pdCell_field f
    rw [e, hf]
    unfold oldBad oldTRow OldLine.trow
    simp only [List.map_cons, List.headD_cons, Field.val]
    refine ⟨rfl, ?_⟩
    rw [hcc, hf]
    simp only [Option.getD_some, List.map_cons, Field.val]
    unfold pyTrunc
    rw [if_pos h0]
  cases l with
  | sample ms x => exact main ms _ rfl rfl
  | fix ms => exact main ms _ rfl rfl
  | status ms values => exact main ms _ rfl rfl
  | other => simp [OldLine.kind] at hk

end Gemlog
