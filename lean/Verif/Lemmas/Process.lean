import Verif.Model.Process

namespace Gemlog

/-! ## Helper facts about `processData` -/

/-- The ingredients of a successful `processData` (helper). -/
structure ProcOk (emptyRaises : Bool) (table : Table) (offset : Rat) (version : String) (requireGps : Bool)
    (out : FileData) where
  R : Rat
  ms : List Rat
  adc : List (Option Rat)
  mta : List (List (Option Rat))
  hR : rolloverOf version = some R
  hms : correctedMillis R offset (table.rows.map TRow.saw) = some ms
  hD : (ms.zip table.rows).filter (fun p => p.2.kind == .D) ≠ []
  hM : (ms.zip table.rows).filter (fun p => p.2.kind == .M) ≠ []
  hadc : ((ms.zip table.rows).filter (fun p => p.2.kind == .D)).mapM (fun p => (p.2.col
    (if version ∈ ["0.8", "0.85"] then 2 else if table.isBytes then 2 else 1)).toNumeric) = some adc
  hmta : ((ms.zip table.rows).filter (fun p => p.2.kind == .M)).mapM (fun p =>
    (List.range (numMCols version - 1)).mapM fun j => (p.2.col (j + 2)).toNumeric) = some mta
  hdata : out.data = (((ms.zip table.rows).filter (fun p => p.2.kind == .D)).map Prod.fst).zip
    (if version ∈ ["1.10", "0.9", "0.85C"] then cumsumNaN 0 adc else adc)
  hmeta : out.metadata = (((ms.zip table.rows).filter (fun p => p.2.kind == .M)).map Prod.fst).zip mta
  hgps : gpsTable emptyRaises ((ms.zip table.rows).filter (fun p => p.2.kind == .G)) = some out.gps ∨
    (gpsTable emptyRaises ((ms.zip table.rows).filter (fun p => p.2.kind == .G)) = none ∧
      out.gps = [] ∧ requireGps = false)

theorem process_ok {emptyRaises : Bool} {table : Table} {offset : Rat} {version : String}
    {requireGps : Bool} {out : FileData}
    (h : processData emptyRaises table offset version requireGps = .ok out) :
    Nonempty (ProcOk emptyRaises table offset version requireGps out) := by
  unfold processData at h
  split at h
  · simp at h
  · rename_i R hR
    split at h
    · simp at h
    · rename_i ms hms
      simp only at h
      by_cases hc : (ms.zip table.rows).filter (fun p => p.2.kind == .D) = [] ∨
          (ms.zip table.rows).filter (fun p => p.2.kind == .M) = []
      · rw [if_pos hc] at h; simp at h
      · rw [if_neg hc] at h
        push Not at hc
        split at h
        · rename_i adc mta hadc hmta
          split at h
          · rename_i gps hg
            simp only [Except.ok.injEq] at h
            subst h
            exact ⟨⟨R, ms, adc, mta, hR, hms, hc.1, hc.2, hadc, hmta, rfl, rfl, Or.inl hg⟩⟩
          · rename_i hg
            by_cases hrg : requireGps = true
            · rw [if_pos hrg] at h; simp at h
            · rw [if_neg hrg] at h
              simp only [Except.ok.injEq] at h
              subst h
              exact ⟨⟨R, ms, adc, mta, hR, hms, hc.1, hc.2, hadc, hmta, rfl, rfl,
                Or.inr ⟨hg, rfl, by simpa using hrg⟩⟩⟩
        · simp at h

theorem mapM_length {α β : Type} (f : α → Option β) : ∀ (l : List α) (r : List β),
    l.mapM f = some r → r.length = l.length := by
  intro l
  induction l with
  | nil => intro r h; simp at h; subst h; rfl
  | cons a l ih =>
    intro r h
    rw [List.mapM_cons] at h
    cases hf : f a with
    | none => simp [hf] at h
    | some b =>
      cases hl : l.mapM f with
      | none => simp [hf, hl] at h
      | some r' =>
        simp [hf, hl] at h
        subst h
        simp [ih r' hl]

theorem mapM_get {α β : Type} (f : α → Option β) : ∀ (l : List α) (r : List β),
    l.mapM f = some r → r.map some = l.map f := by
  intro l
  induction l with
  | nil => intro r h; simp at h; subst h; rfl
  | cons a l ih =>
    intro r h
    rw [List.mapM_cons] at h
    cases hf : f a with
    | none => simp [hf] at h
    | some b =>
      cases hl : l.mapM f with
      | none => simp [hf, hl] at h
      | some r' =>
        simp [hf, hl] at h
        subst h
        simp [ih r' hl, hf]

theorem mapM_total {α β : Type} (f : α → Option β) (g : α → β) : ∀ (l : List α),
    (∀ a ∈ l, f a = some (g a)) → l.mapM f = some (l.map g) := by
  intro l
  induction l with
  | nil => intro _; rfl
  | cons a l ih =>
    intro h
    rw [List.mapM_cons, h a (by simp), ih (fun x hx => h x (by simp [hx]))]
    rfl

theorem cumsumNaN_length (l : List (Option Rat)) : ∀ acc, (cumsumNaN acc l).length = l.length := by
  induction l with
  | nil => intro acc; rfl
  | cons a l ih => intro acc; cases a <;> simp [cumsumNaN, ih]

theorem cumsumNaN_get : ∀ (l : List (Option Rat)) (acc : Rat) (i : Nat) (hi : i < l.length),
    (cumsumNaN acc l)[i]? = some ((l[i]).map fun _ => acc + ((l.take (i + 1)).filterMap id).sum) := by
  intro l
  induction l with
  | nil => intro acc i hi; simp at hi
  | cons a l ih =>
    intro acc i hi
    cases i with
    | zero => cases a <;> simp [cumsumNaN]
    | succ i =>
      have hi' : i < l.length := by simpa using hi
      cases a with
      | none =>
        simp only [cumsumNaN, List.getElem?_cons_succ, List.getElem_cons_succ]
        rw [ih acc i hi']
        simp [List.take_succ_cons]
      | some x =>
        simp only [cumsumNaN, List.getElem?_cons_succ, List.getElem_cons_succ]
        rw [ih (acc + x) i hi']
        simp [List.take_succ_cons, add_assoc]

theorem correctedMillis_length {R offset : Rat} {s ms : List Rat} (h : correctedMillis R offset s = some ms) :
    ms.length = s.length := by
  have h1 : ∀ (l : List Int) (a : Int), (cumsumFrom a l).length = l.length := by
    intro l
    induction l with
    | nil => intro a; rfl
    | cons x l ih => intro a; simp [cumsumFrom, ih]
  have h2 : ∀ (l : List Rat) (p : Option Rat), (pdDiffFrom p l).length = l.length := by
    intro l
    induction l with
    | nil => intro p; rfl
    | cons x l ih => intro p; simp [pdDiffFrom, ih]
  have h3 : (correctedRaw R s).length = s.length := by
    simp [correctedRaw, stairstep, cumsum, stepUp, stepDown, pdDiff, h1, h2]
  unfold correctedMillis at h
  split at h
  · simp at h
  · rename_i first rest heq
    simp only [Option.some.injEq] at h
    subst h
    rw [List.length_map, ← heq, h3]

end Gemlog
