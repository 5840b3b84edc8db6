import Verif.Props.ReadSingle

/-!
# Properties C15-C18: reading several files

`FileOps` is arbitrary: the theorems hold for every outcome of reading each file.
-/

set_option linter.unusedSimpArgs false

namespace Gemlog

/-! ## Specification -/

/-- The version passed on for a file: the compact formats are all read as 0.9. -/
def PassedVersion (version v : String) : Prop :=
  (v = "0.9" ∧ (version = "1.10" ∨ version = "0.91" ∨ version = "0.9" ∨ version = "0.85C")) ∨
  (v = version ∧ (version = "0.8" ∨ version = "0.85"))

/-- All times of a file moved by `c` milliseconds. -/
def movedBy (c : Rat) (L : FileData) : FileData :=
  ⟨L.data.map fun p => (p.1 + c, p.2), L.metadata.map fun p => (p.1 + c, p.2),
    L.gps.map fun f => { f with msPPS := f.msPPS + c }⟩

/-- The file as it is used: as read after `start`, moved one roll-over (8192 ms) on if it begins before `start`. -/
inductive Placed (start : Rat) (L : FileData) : FileData → Prop
  | asRead (h : ∀ p ∈ L.data.head?, start ≤ p.1) (hne : L.data ≠ []) : Placed start L L
  | moved (h : ∃ p ∈ L.data.head?, p.1 < start) : Placed start L (movedBy 8192 L)

/-- Sample times never go back and never jump by more than a second. -/
def Steady (L : FileData) : Prop :=
  (L.data.map Prod.fst).IsChain (fun a b => a ≤ b ∧ b ≤ a + 1000)

/-- What can happen to one file that is read after a record ending at `start`. -/
inductive Outcome {F : Type} (ops : FileOps F) (rg : Bool) (version : String) (start : Rat) (f : F) :
    Except Exc FileData → Prop
  | badVersion (h : ∀ v, ¬ PassedVersion version v) : Outcome ops rg version start f (.error .corrupt)
  | unreadable (v : String) (hv : PassedVersion version v) (x : Exc) (h : ops.read f start rg v = .error x) :
      Outcome ops rg version start f (.error x)
  | noData (v : String) (hv : PassedVersion version v) (L : FileData) (h : ops.read f start rg v = .ok L)
      (hn : L.data = []) : Outcome ops rg version start f (.error .other)
  | unsteady (v : String) (hv : PassedVersion version v) (L P : FileData) (h : ops.read f start rg v = .ok L)
      (hp : Placed start L P) (hs : ¬ Steady P) : Outcome ops rg version start f (.error .corrupt)
  | badClock (v : String) (hv : PassedVersion version v) (L P : FileData) (h : ops.read f start rg v = .ok L)
      (hp : Placed start L P) (hs : Steady P) (x : Exc) (hd : ops.drift f P rg = .error x) :
      Outcome ops rg version start f (.error x)
  | noSerial (v : String) (hv : PassedVersion version v) (L P : FileData) (h : ops.read f start rg v = .ok L)
      (hp : Placed start L P) (hs : Steady P) (info : HeaderInfo) (hd : ops.drift f P rg = .ok info) (x : Exc)
      (hn : ops.readSN f = .error x) : Outcome ops rg version start f (.error x)
  | used (v : String) (hv : PassedVersion version v) (L P : FileData) (h : ops.read f start rg v = .ok L)
      (hp : Placed start L P) (hs : Steady P) (info : HeaderInfo) (hd : ops.drift f P rg = .ok info) (sn : String)
      (hn : ops.readSN f = .ok sn) : Outcome ops rg version start f (.ok P)

/-- The time of the last sample of a record, or `start` if it has none. -/
def endOf (start : Rat) (L : FileData) : Rat :=
  match L.data.getLast? with
  | some p => p.1
  | none => start

/-- A history of reading files one after another, with the outcome of each. -/
inductive History {F : Type} (ops : FileOps F) (rg : Bool) (version : String) :
    Rat → List (F × Except Exc FileData) → Prop
  | nil (start : Rat) : History ops rg version start []
  | rejected (start : Rat) (f : F) (x : Exc) (h : Outcome ops rg version start f (.error x))
      (rest : List (F × Except Exc FileData)) (hr : History ops rg version start rest) :
      History ops rg version start ((f, .error x) :: rest)
  | accepted (start : Rat) (f : F) (P : FileData) (h : Outcome ops rg version start f (.ok P))
      (rest : List (F × Except Exc FileData)) (hr : History ops rg version (endOf start P) rest) :
      History ops rg version start ((f, .ok P) :: rest)

/-- The file, if it was accepted. -/
def okPart {F : Type} : F × Except Exc FileData → Option FileData
  | (_, .ok L) => some L
  | (_, .error _) => none

/-- The file and the reason, if it was rejected. -/
def errPart {F : Type} : F × Except Exc FileData → Option (F × Exc)
  | (_, .ok _) => none
  | (f, .error x) => some (f, x)

/-- The accepted files of a history. -/
def accepted {F : Type} (hist : List (F × Except Exc FileData)) : List FileData := hist.filterMap okPart

/-- The rejected files of a history with the reasons. -/
def rejected {F : Type} (hist : List (F × Except Exc FileData)) : List (F × Exc) :=
  hist.filterMap errPart

/-- A header row of zeros. -/
def zeroRow : HeaderRow := ⟨⟨some 0, some 0, 0, 0, 0, 0, 0, 0, 0, none, 0⟩, 0, ""⟩

/-- The clock recorded for a file: none if GPS is required and the file has no fixes. -/
def recordedClock (rg : Bool) (P : FileData) (info : HeaderInfo) : HeaderInfo :=
  if rg = true ∧ P.gps = [] then zeroRow.info else info

/-- The header row of a file, given its outcome: clock, number of samples and serial number of an accepted file,
zeros for a rejected one, except that a file rejected for lack of a serial number leaves its clock behind. -/
inductive RowFor {F : Type} (ops : FileOps F) (rg : Bool) : F × Except Exc FileData → HeaderRow → Prop
  | used (f : F) (P : FileData) (info : HeaderInfo) (sn : String) (hd : ops.drift f P rg = .ok info)
      (hn : ops.readSN f = .ok sn) : RowFor ops rg (f, .ok P) ⟨recordedClock rg P info, P.data.length, sn⟩
  | zero (f : F) (x : Exc) : RowFor ops rg (f, .error x) zeroRow
  | noSerial (f : F) (x : Exc) (P : FileData) (info : HeaderInfo) (hd : ops.drift f P rg = .ok info)
      (hn : ops.readSN f = .error x) : RowFor ops rg (f, .error x) ⟨recordedClock rg P info, P.data.length, ""⟩

/-! ## Connection with the model -/

theorem readOne_row {F : Type} (ops : FileOps F) (rg : Bool) (version : String) (f : F) (start : Rat) :
    RowFor ops rg (f, (readOne ops rg version f start).2) (readOne ops rg version f start).1 := by
  unfold readOne
  cases (readVersioned ops rg version f start).bind (fun L => alignStart L start) with
  | error x => exact .zero f x
  | ok P =>
    simp only
    cases discontinuous (P.data.map Prod.fst) with
    | true => exact .zero f _
    | false =>
      simp only [Bool.false_eq_true, if_false]
      cases hdr : ops.drift f P rg with
      | error x => exact .zero f x
      | ok info =>
        simp only
        have hrow : (if rg = false ∨ P.gps ≠ [] then { emptyRow with info := info } else emptyRow)
            = ⟨recordedClock rg P info, 0, ""⟩ := by
          unfold recordedClock
          cases rg <;> by_cases hg : P.gps = [] <;> simp [hg, emptyRow, zeroRow]
        rw [hrow]
        cases hsn : ops.readSN f with
        | error x => exact .noSerial f x P info hdr hsn
        | ok sn => exact .used f P info sn hdr hsn

theorem discontinuous_iff (l : List Rat) :
    discontinuous l = false ↔ l.IsChain (fun a b => a ≤ b ∧ b ≤ a + 1000) := by
  induction l with
  | nil => simp [discontinuous]
  | cons a l ih =>
    cases l with
    | nil => simp [discontinuous]
    | cons b l =>
      rw [discontinuous, List.isChain_cons_cons, ← ih]
      simp only [Bool.or_eq_false_iff, decide_eq_false_iff_not, not_lt, gt_iff_lt]
      constructor
      · rintro ⟨⟨h1, h2⟩, h3⟩; exact ⟨⟨by linarith, by linarith⟩, h3⟩
      · rintro ⟨⟨h1, h2⟩, h3⟩; exact ⟨⟨by linarith, by linarith⟩, h3⟩

theorem alignStart_ok {L P : FileData} {start : Rat} (h : alignStart L start = .ok P) : Placed start L P := by
  unfold alignStart at h
  split at h
  · simp at h
  · rename_i p l hl
    simp only [Except.ok.injEq] at h
    by_cases hc : p.1 < start
    · rw [if_pos hc] at h
      subst h
      have : L.shift (2 ^ 13) = movedBy 8192 L := by
        unfold FileData.shift movedBy; norm_num
      rw [this]
      exact .moved ⟨p, by simp [hl], hc⟩
    · rw [if_neg hc] at h
      subst h
      exact .asRead (by simp [hl]; linarith) (by simp [hl])

theorem readOne_outcome {F : Type} (ops : FileOps F) (rg : Bool) (version : String) (f : F) (start : Rat) :
    Outcome ops rg version start f (readOne ops rg version f start).2 := by
  unfold readOne
  by_cases hv : ∃ v, PassedVersion version v
  · obtain ⟨v, hv⟩ := hv
    have hr : readVersioned ops rg version f start = ops.read f start rg v := by
      unfold readVersioned
      rcases hv with ⟨rfl, h⟩ | ⟨rfl, h⟩
      · rw [if_pos (by simpa using h)]
      · rw [if_neg (by rcases h with h | h <;> rw [h] <;> decide), if_pos (by simpa using h)]
    rw [hr]
    cases hL : ops.read f start rg v with
    | error x => exact .unreadable v hv x hL
    | ok L =>
      simp only [Except.bind]
      cases hP : alignStart L start with
      | error x =>
        unfold alignStart at hP
        split at hP
        · rename_i hn
          simp only [Except.error.injEq] at hP
          subst hP
          exact .noData v hv L hL hn
        · simp at hP
      | ok P =>
        have hp := alignStart_ok hP
        simp only
        cases hd : discontinuous (P.data.map Prod.fst) with
        | true =>
          simp only [if_true]
          refine .unsteady v hv L P hL hp (fun hs => ?_)
          have := (discontinuous_iff _).mpr hs
          rw [hd] at this; simp at this
        | false =>
          have hs : Steady P := (discontinuous_iff _).mp hd
          simp only [Bool.false_eq_true, if_false]
          cases hdr : ops.drift f P rg with
          | error x => exact .badClock v hv L P hL hp hs x hdr
          | ok info =>
            simp only
            cases hsn : ops.readSN f with
            | error x => exact .noSerial v hv L P hL hp hs info hdr x hsn
            | ok sn => exact .used v hv L P hL hp hs info hdr sn hsn
  · push Not at hv
    have h1 : ¬ (version = "1.10" ∨ version = "0.91" ∨ version = "0.9" ∨ version = "0.85C") :=
      fun h => hv "0.9" (Or.inl ⟨rfl, h⟩)
    have h2 : ¬ (version = "0.8" ∨ version = "0.85") := fun h => hv version (Or.inr ⟨rfl, h⟩)
    have hr : readVersioned ops rg version f start = .error .corrupt := by
      unfold readVersioned
      rw [if_neg (by simpa using h1), if_neg (by simpa using h2)]
    rw [hr]
    exact .badVersion hv

theorem severalLoop_history {F : Type} (ops : FileOps F) (rg : Bool) (version : String) (files : List F) :
    ∀ (acc out : Several F), severalLoop ops rg version files acc = .ok out →
      (acc.data ≠ [] → acc.data.getLast?.map Prod.fst = some acc.startMillis) →
    ∃ hist : List (F × Except Exc FileData), hist.map Prod.fst = files ∧
      History ops rg version acc.startMillis hist ∧
      out.data = acc.data ++ ((accepted hist).map FileData.data).flatten ∧
      out.gps = acc.gps ++ ((accepted hist).map FileData.gps).flatten ∧
      out.metadata = acc.metadata ++ ((accepted hist).map FileData.metadata).flatten ∧
      out.problems = acc.problems ++ rejected hist ∧
      ∃ rows, out.header = acc.header ++ rows ∧ List.Forall₂ (RowFor ops rg) hist rows := by
  induction files with
  | nil =>
    intro acc out h _
    simp only [severalLoop, Except.ok.injEq] at h
    subst h
    exact ⟨[], rfl, .nil _, by simp [accepted, List.filterMap_cons, okPart], by simp [accepted, List.filterMap_cons, okPart], by simp [accepted, List.filterMap_cons, okPart], by simp [rejected, List.filterMap_cons, errPart], [], by simp, .nil⟩
  | cons f fs ih =>
    intro acc out h hinv
    have ho := readOne_outcome ops rg version f acc.startMillis
    have hrw := readOne_row ops rg version f acc.startMillis
    obtain ⟨row, r, hro⟩ : ∃ row r, readOne ops rg version f acc.startMillis = (row, r) := ⟨_, _, rfl⟩
    rw [hro] at ho hrw
    simp only at ho hrw
    unfold severalLoop severalStep at h
    rw [hro] at h
    cases r with
    | error x =>
      simp only at h
      by_cases hx : x.isException = true
      · rw [if_pos hx] at h
        simp only at h
        obtain ⟨hist, h1, h2, h3, h4, h5, h6, rows, h7, h8⟩ := ih _ out h hinv
        refine ⟨(f, .error x) :: hist, by simp [h1], .rejected _ f x ho hist h2, ?_, ?_, ?_, ?_, row :: rows, ?_, .cons hrw h8⟩
        · rw [h3]; simp [accepted, List.filterMap_cons, okPart]
        · rw [h4]; simp [accepted, List.filterMap_cons, okPart]
        · rw [h5]; simp [accepted, List.filterMap_cons, okPart]
        · rw [h6]; simp [rejected, List.filterMap_cons, errPart]
        · rw [h7]; simp
      · rw [if_neg hx] at h
        simp at h
    | ok L =>
      simp only at h
      have hstart : lastTime acc.startMillis (acc.data ++ L.data) = endOf acc.startMillis L := by
        unfold endOf lastTime
        rcases hL : L.data.getLast? with _ | p
        · have hnil : L.data = [] := by simpa using hL
          rw [hnil, List.append_nil]
          simp only
          by_cases hne : acc.data = []
          · simp [hne]
          · have := hinv hne
            cases hl : acc.data.getLast? with
            | none => simp
            | some p => rw [hl] at this; simp at this; simp [this]
        · have : (acc.data ++ L.data).getLast? = some p := by simp [List.getLast?_append, hL]
          rw [this]; rfl
      rw [hstart] at h
      obtain ⟨hist, h1, h2, h3, h4, h5, h6, rows, h7, h8⟩ := ih _ out h (by
        intro hne
        simp only
        rw [← hstart]
        unfold lastTime
        cases hl : (acc.data ++ L.data).getLast? with
        | none => simp at hl; simp [hl] at hne
        | some p => simp)
      refine ⟨(f, .ok L) :: hist, by simp [h1], .accepted _ f L ho hist h2, ?_, ?_, ?_, ?_, row :: rows, ?_, .cons hrw h8⟩
      · rw [h3]; simp [accepted, List.filterMap_cons, okPart]
      · rw [h4]; simp [accepted, List.filterMap_cons, okPart]
      · rw [h5]; simp [accepted, List.filterMap_cons, okPart]
      · rw [h6]; simp [rejected, List.filterMap_cons, errPart]
      · rw [h7]; simp

/-! ## C15 -/

/-- **C15.** Every file of the list is either used completely or reported exactly once: there is a history of the files,
in order, such that the samples, fixes and metadata returned are those of the accepted files concatenated in
order, the problems are the rejected files in order, and the header has one row per file. -/
theorem C15_used_or_reported {F : Type} (ops : FileOps F) (rg : Bool) (version : String) (files : List F)
    (out : Several F) (h : readSeveral ops files version rg = .ok out) :
    ∃ hist : List (F × Except Exc FileData), hist.map Prod.fst = files ∧ History ops rg version 0 hist ∧
      out.data = ((accepted hist).map FileData.data).flatten ∧
      out.gps = ((accepted hist).map FileData.gps).flatten ∧
      out.metadata = ((accepted hist).map FileData.metadata).flatten ∧
      out.problems = rejected hist ∧ List.Forall₂ (RowFor ops rg) hist out.header := by
  obtain ⟨hist, h1, h2, h3, h4, h5, h6, rows, h7, h8⟩ := severalLoop_history ops rg version files _ out h (by simp)
  exact ⟨hist, h1, h2, by simpa using h3, by simpa using h4, by simpa using h5, by simpa using h6, by rw [h7]; simpa using h8⟩

/-- **C15.** Reading several files fails as a whole only on an interrupt (or another exception that is not an
`Exception`): no ordinary failure of one file stops the run. -/
theorem C15_only_interrupts_escape {F : Type} (ops : FileOps F) (rg : Bool) (version : String) (files : List F)
    (x : Exc) (h : readSeveral ops files version rg = .error x) : x = .keyboardInterrupt ∨ x = .baseOther := by
  have key : ∀ (fs : List F) (acc : Several F), severalLoop ops rg version fs acc = .error x →
      x = .keyboardInterrupt ∨ x = .baseOther := by
    intro fs
    induction fs with
    | nil => intro acc h; simp [severalLoop] at h
    | cons f fs ih =>
      intro acc h
      unfold severalLoop severalStep at h
      obtain ⟨row, r, hro⟩ : ∃ row r, readOne ops rg version f acc.startMillis = (row, r) := ⟨_, _, rfl⟩
      rw [hro] at h
      cases r with
      | ok L => exact ih _ h
      | error y =>
        simp only at h
        by_cases hy : y.isException = true
        · rw [if_pos hy] at h; exact ih _ h
        · rw [if_neg hy] at h
          simp only [Except.error.injEq] at h
          subst h
          cases y <;> simp [Exc.isException] at hy ⊢
  exact key files _ h

/-! ## C16 -/

theorem readOne_unique {F : Type} {ops : FileOps F} {rg : Bool} {version : String} {f : F} {start : Rat}
    {a b : Except Exc FileData} (ha : (readOne ops rg version f start).2 = a)
    (hb : (readOne ops rg version f start).2 = b) : a = b := by rw [← ha, ← hb]

/-- **C16.** Whatever files are rejected, leaving them out of the list gives the same samples, fixes, metadata, and
no problems. -/
theorem C16_rejected_files_irrelevant {F : Type} (ops : FileOps F) (rg : Bool) (version : String) (files : List F)
    (out : Several F) (h : readSeveral ops files version rg = .ok out) :
    ∃ keep : List Bool, keep.length = files.length ∧
      out.problems.map Prod.fst = ((keep.zip files).filter fun p => !p.1).map Prod.snd ∧
      ∃ out', readSeveral ops (((keep.zip files).filter fun p => p.1).map Prod.snd) version rg = .ok out' ∧
        out'.data = out.data ∧ out'.gps = out.gps ∧ out'.metadata = out.metadata ∧ out'.problems = [] := by
  have key : ∀ (fs : List F) (acc acc' out : Several F), severalLoop ops rg version fs acc = .ok out →
      acc'.data = acc.data → acc'.gps = acc.gps → acc'.metadata = acc.metadata →
      acc'.startMillis = acc.startMillis → acc'.problems = [] →
      ∃ keep : List Bool, keep.length = fs.length ∧
        out.problems.map Prod.fst = acc.problems.map Prod.fst ++ ((keep.zip fs).filter fun p => !p.1).map Prod.snd ∧
        ∃ out', severalLoop ops rg version (((keep.zip fs).filter fun p => p.1).map Prod.snd) acc' = .ok out' ∧
          out'.data = out.data ∧ out'.gps = out.gps ∧ out'.metadata = out.metadata ∧ out'.problems = [] := by
    intro fs
    induction fs with
    | nil =>
      intro acc acc' out h h1 h2 h3 h4 h5
      simp only [severalLoop, Except.ok.injEq] at h
      subst h
      exact ⟨[], rfl, by simp, acc', rfl, h1, h2, h3, h5⟩
    | cons f fs ih =>
      intro acc acc' out h h1 h2 h3 h4 h5
      obtain ⟨row, r, hro⟩ : ∃ row r, readOne ops rg version f acc.startMillis = (row, r) := ⟨_, _, rfl⟩
      unfold severalLoop severalStep at h
      rw [hro] at h
      cases r with
      | error x =>
        simp only at h
        by_cases hx : x.isException = true
        · rw [if_pos hx] at h
          obtain ⟨keep, hk, hp, out', ho⟩ := ih _ acc' out h h1 h2 h3 h4 h5
          refine ⟨false :: keep, by simp [hk], ?_, out', ?_⟩
          · rw [hp]; simp
          · simpa using ho
        · rw [if_neg hx] at h
          simp at h
      | ok L =>
        simp only at h
        obtain ⟨keep, hk, hp, out', ho, h6⟩ := ih _
          ⟨acc'.metadata ++ L.metadata, acc'.gps ++ L.gps, acc'.data ++ L.data, acc'.header ++ [row], acc'.problems,
            lastTime acc'.startMillis (acc'.data ++ L.data)⟩ out h
          (by simp [h1]) (by simp [h2]) (by simp [h3]) (by simp [h1, h4]) h5
        refine ⟨true :: keep, by simp [hk], ?_, out', ?_, h6⟩
        · rw [hp]; simp
        · simp only [List.zip_cons_cons, List.filter_cons_of_pos, List.map_cons]
          unfold severalLoop severalStep
          rw [h4, hro]
          simp only
          rw [h4] at ho
          exact ho
  obtain ⟨keep, hk, hp, out', ho, h6⟩ := key files _ ⟨[], [], [], [], [], 0⟩ out h rfl rfl rfl rfl rfl
  exact ⟨keep, hk, by simpa using hp, out', ho, h6⟩

/-! ## C17 -/

theorem outcome_used_steady {F : Type} {ops : FileOps F} {rg : Bool} {version : String} {start : Rat} {f : F}
    {P : FileData} (h : Outcome ops rg version start f (.ok P)) : Steady P := by
  cases h; assumption

theorem history_steady {F : Type} {ops : FileOps F} {rg : Bool} {version : String} {start : Rat}
    {hist : List (F × Except Exc FileData)} (h : History ops rg version start hist) :
    ∀ P ∈ accepted hist, Steady P := by
  induction h with
  | nil => simp [accepted, List.filterMap_cons, okPart]
  | rejected _ _ _ _ _ _ ih => simpa [accepted, List.filterMap_cons, okPart] using ih
  | accepted _ _ P ho _ _ ih =>
    intro Q hQ
    simp only [accepted, okPart, List.filterMap_cons, List.mem_cons] at hQ
    rcases hQ with rfl | hQ
    · exact outcome_used_steady ho
    · exact ih Q hQ

theorem accepted_rejected_length {F : Type} (hist : List (F × Except Exc FileData)) :
    (accepted hist).length + (rejected hist).length = hist.length := by
  induction hist with
  | nil => rfl
  | cons p hist ih =>
    unfold accepted rejected at ih ⊢
    rcases p with ⟨f, x | L⟩
    · rw [List.filterMap_cons_none (by rfl), List.filterMap_cons_some (b := (f, x)) (by rfl)]
      simp only [List.length_cons]; omega
    · rw [List.filterMap_cons_some (b := L) (by rfl), List.filterMap_cons_none (by rfl)]
      simp only [List.length_cons]; omega

/-- **C17.** The samples returned are made of one block per accepted file, and inside each block sample times never
decrease and never jump by more than 1000 ms. -/
theorem C17_accepted_files_steady {F : Type} (ops : FileOps F) (rg : Bool) (version : String) (files : List F)
    (out : Several F) (h : readSeveral ops files version rg = .ok out) :
    ∃ blocks : List (List (Rat × Option Rat)), out.data = blocks.flatten ∧
      blocks.length + out.problems.length = files.length ∧
      ∀ b ∈ blocks, (b.map Prod.fst).IsChain (fun s t => s ≤ t ∧ t - s ≤ 1000) := by
  obtain ⟨hist, h1, h2, h3, _, _, h6, _⟩ := C15_used_or_reported ops rg version files out h
  refine ⟨(accepted hist).map FileData.data, h3, ?_, ?_⟩
  · rw [h6, ← h1]
    simpa using accepted_rejected_length hist
  · intro b hb
    obtain ⟨P, hP, rfl⟩ := List.mem_map.mp hb
    exact (history_steady h2 P hP).imp (fun a b hab => ⟨hab.1, by linarith [hab.2]⟩)

/-! ## C18 -/

/-- The sample times of a history that starts at `start` never fall below it and never decrease, if no file is
read more than a roll-over too early. -/
theorem history_increasing {F : Type} {ops : FileOps F} {rg : Bool} {version : String}
    (hop : ∀ f start v L, PassedVersion version v → ops.read f start rg v = .ok L →
      ∀ p ∈ L.data.head?, start - 8192 ≤ p.1)
    {start : Rat} {hist : List (F × Except Exc FileData)} (h : History ops rg version start hist) :
    (start :: (((accepted hist).map FileData.data).flatten.map Prod.fst)).IsChain (· ≤ ·) := by
  induction h with
  | nil => simp [accepted]
  | rejected _ _ _ _ _ _ ih =>
    simp only [accepted, List.filterMap_cons, okPart] at ih ⊢
    exact ih
  | accepted start f P ho rest hr ih =>
    have hP : ∃ p l, P.data = p :: l ∧ start ≤ p.1 := by
      cases ho with
      | used v hv L _ h hp hs info hd sn hn =>
        have h1 := hop f start v L hv h
        cases hp with
        | asRead h2 hne =>
          obtain ⟨p, l, hpl⟩ := List.exists_cons_of_ne_nil hne
          exact ⟨p, l, hpl, h2 p (by simp [hpl])⟩
        | moved h2 =>
          obtain ⟨p, hp, hlt⟩ := h2
          cases hl : L.data with
          | nil => simp [hl] at hp
          | cons q l =>
            have hq := h1 q (by simp [hl])
            refine ⟨(q.1 + 8192, q.2), l.map fun p => (p.1 + 8192, p.2), by simp [movedBy, hl], ?_⟩
            simp only; linarith
    obtain ⟨p, l, hpl, hle⟩ := hP
    have hsteady := outcome_used_steady ho
    have hend : endOf start P = ((p :: l).map Prod.fst).getLast (by simp) := by
      unfold endOf
      rw [hpl, List.getLast?_eq_getLast_of_ne_nil (by simp)]
      rw [List.getLast_map]
    simp only [accepted, List.filterMap_cons, okPart, List.map_cons, List.flatten_cons, List.map_append] at ih ⊢
    rw [hpl]
    rw [hend] at ih
    unfold Steady at hsteady
    rw [hpl] at hsteady
    have h1 : ((p :: l).map Prod.fst).IsChain (· ≤ ·) := hsteady.imp (fun a b hab => hab.1)
    have h2 : (start :: (p :: l).map Prod.fst).IsChain (· ≤ ·) := by
      rw [List.map_cons, List.isChain_cons_cons]
      exact ⟨hle, by simpa using h1⟩
    rw [← List.cons_append]
    rw [List.isChain_append]
    refine ⟨h2, (List.isChain_cons.mp ih).2, ?_⟩
    intro x hx y hy
    have := (List.isChain_cons.mp ih).1 y hy
    rw [List.getLast?_cons] at hx
    have hx' : x = ((p :: l).map Prod.fst).getLast (by simp) := by
      rw [List.getLast?_eq_getLast_of_ne_nil (by simp)] at hx
      simpa using hx.symm
    rw [hx']; exact this

/-- The outcome of `_read_single` for files given by the outcomes of the three table readers. -/
def readFiles {F : Type} (e : Bool) (readers : F → Readers) (drift : F → FileData → Bool → Except Exc HeaderInfo)
    (readSN : F → Except Exc String) : FileOps F :=
  ⟨fun f offset rg version => readSingle e (readers f) offset rg version, drift, readSN⟩

/-- How far a counter that starts again from 0 at `R` has moved from `a` to `b`, if by less than half a turn. -/
def wrapStep (R a b : Rat) : Rat := if b - a < -(R / 2) then b - a + R else if b - a > R / 2 then b - a - R else b - a

/-- How far the counter has moved from the first line to the first sample. -/
def moveToSample (R : Rat) : List TRow → Rat
  | [] => 0
  | r :: l => if r.kind = .D then 0 else (l.head?.map fun s => wrapStep R r.saw s.saw).getD 0 + moveToSample R l

/-- The first sample is at most 4096 ms earlier than the first line. -/
def SampleSoon (t : Table) : Prop := -4096 ≤ moveToSample 8192 t.rows

theorem wrapStep_bounds (a b : Rat) (ha : 0 ≤ a ∧ a < 8192) (hb : 0 ≤ b ∧ b < 8192) : -4096 ≤ wrapStep 8192 a b ∧ wrapStep 8192 a b ≤ 4096 := by
  unfold wrapStep
  split_ifs <;> constructor <;> linarith [ha.1, ha.2, hb.1, hb.2]

/-- With a sample in the first or second line, counts within one turn always meet the condition. -/
theorem sampleSoon_second {t : Table} (h : ∃ r s l, t.rows = r :: l ∧ (r.kind = .D ∨ l.head? = some s ∧ s.kind = .D))
    (hw : ∀ r ∈ t.rows, 0 ≤ r.saw ∧ r.saw < 8192) : SampleSoon t := by
  obtain ⟨r, s, l, hl, h⟩ := h
  unfold SampleSoon
  rw [hl] at hw ⊢
  unfold moveToSample
  split_ifs with hr
  · norm_num
  · rcases h with h | ⟨h, hs⟩
    · exact absurd h hr
    · cases l with
      | nil => simp at h
      | cons s' l =>
        obtain rfl : s' = s := by simpa using h
        have := (wrapStep_bounds r.saw s'.saw (hw _ (by simp)) (hw _ (by simp))).1
        unfold moveToSample
        rw [if_pos hs]
        simpa using this

theorem walk_first_sample (R c : Rat) (hR : 0 < R) : ∀ (rows : List TRow) (prev : Option Rat) (k : Int) (m : Rat) (p : Rat × TRow),
    ((walk R prev k (rows.map TRow.saw)).map fun m => m + c).head? = some m →
    ((((walk R prev k (rows.map TRow.saw)).map fun m => m + c).zip rows).filter fun p => p.2.kind == .D).head? = some p →
    p.1 = m + moveToSample R rows := by
  intro rows
  induction rows with
  | nil => intro prev k m p h; simp [walk] at h
  | cons r l ih =>
    intro prev k m p hm hp
    simp only [List.map_cons, walk, List.head?_cons, Option.some.injEq] at hm
    simp only [List.map_cons, walk, List.zip_cons_cons] at hp
    unfold moveToSample
    by_cases hr : r.kind = .D
    · rw [if_pos hr]
      rw [List.filter_cons_of_pos (by simp [hr])] at hp
      simp only [List.head?_cons, Option.some.injEq] at hp
      rw [← hp, ← hm, add_zero]
    · rw [if_neg hr]
      rw [List.filter_cons_of_neg (by simp [hr])] at hp
      cases l with
      | nil => simp [walk] at hp
      | cons s l =>
        rw [ih _ _ _ p rfl hp, ← hm]
        simp only [List.head?_cons, Option.map_some, Option.getD_some]
        rw [← add_assoc]
        congr 1
        generalize k + stepDelta R prev r.saw = j
        unfold wrapStep
        by_cases h1 : s.saw - r.saw < -(R / 2)
        · have h2 : ¬ s.saw - r.saw > R / 2 := by intro h2; linarith
          rw [if_pos h1]
          simp only [stepDelta]
          rw [if_pos h1, if_neg h2]
          push_cast; ring
        · rw [if_neg h1]
          simp only [stepDelta]
          rw [if_neg h1]
          split_ifs <;> push_cast <;> ring

theorem processData_soon {e : Bool} {t : Table} {offset : Rat} {version : String} {rg : Bool}
    {out : FileData} (h : processData e t offset version rg = .ok out) {R : Rat} (hR : rolloverOf version = some R) :
    ∀ p ∈ out.data.head?, -(R / 2) + moveToSample R t.rows ≤ p.1 - offset ∧ p.1 - offset < R / 2 + moveToSample R t.rows := by
  obtain ⟨q⟩ := process_ok h
  have hpos : 0 < R := by rcases rollover_eq hR with rfl | rfl <;> norm_num
  have hRq : q.R = R := by have := q.hR; rw [hR] at this; simpa using this.symm
  have hms := q.hms
  rw [hRq] at hms
  obtain ⟨_, hfirst⟩ := C08_corrected_congruent R offset hpos _ _ hms
  intro p hp
  rw [q.hdata] at hp
  unfold correctedMillis at hms
  rw [correctedRaw_eq_walk] at hms
  cases hw : walk R none 0 (t.rows.map TRow.saw) with
  | nil => rw [hw] at hms; simp at hms
  | cons first rest =>
    rw [hw] at hms
    simp only [Option.some.injEq] at hms
    rw [← hw] at hms
    obtain ⟨d, hd, hpd⟩ : ∃ d, ((q.ms.zip t.rows).filter fun p => p.2.kind == .D).head? = some d ∧ p.1 = d.1 := by
      generalize hL : (q.ms.zip t.rows).filter (fun p => p.2.kind == .D) = L at hp
      generalize (if version ∈ ["1.10", "0.9", "0.85C"] then cumsumNaN 0 q.adc else q.adc) = vals at hp
      cases L with
      | nil => simp at hp
      | cons d L =>
        cases vals with
        | nil => simp at hp
        | cons v vals =>
          simp only [List.map_cons, List.zip_cons_cons, List.head?_cons, Option.mem_def, Option.some.injEq] at hp
          exact ⟨d, rfl, by rw [← hp]⟩
    have hhead : ((walk R none 0 (t.rows.map TRow.saw)).map fun m => m + offsetShift R offset first).head? = some (first + offsetShift R offset first) := by
      rw [hw]; rfl
    rw [← hms] at hd hfirst
    have := walk_first_sample R (offsetShift R offset first) hpos t.rows none 0 _ d hhead hd
    have hf := hfirst _ hhead
    rw [hpd, this]
    constructor <;> linarith [hf.1, hf.2]

theorem readSingle_first {e : Bool} {rd : Readers} {offset : Rat} {rg : Bool} {version : String} {out : FileData}
    {R c : Rat} (hs : ∀ r ∈ readersFor rd version, ∀ t, r = .ok t → c ≤ moveToSample R t.rows)
    (h : readSingle e rd offset rg version = .ok out) (hR : rolloverOf version = some R) :
    ∀ p ∈ out.data.head?, -(R / 2) + c + 893 / 100 ≤ p.1 - offset := by
  rw [C14_first_decisive_reader] at h
  split at h
  · simp at h
  · simp at h
  · rename_i o ho
    obtain ⟨r, hr, hro⟩ := List.mem_map.mp (List.mem_of_find?_eq_some ho)
    split_ifs at h
    simp only [Except.ok.injEq] at h
    cases r with
    | error x => simp [outcomeOf] at hro
    | ok t =>
      have hc := hs _ hr t rfl
      have hf := processData_soon (show processData e t offset version rg = .ok o from hro) hR
      intro p hp
      rw [← h] at hp
      simp only [List.head?_map, Option.mem_def, Option.map_eq_some_iff] at hp
      obtain ⟨q, hq, rfl⟩ := hp
      have := (hf q hq).1
      simp only; linarith

/-- **C18** (formats with an 8192 ms counter). Reading files whose first sample is not more than 4096 ms earlier than their first line, one after
another, gives a record whose sample times never decrease, within and across files. By `sampleSoon_second` this includes all files with a sample among
the first two lines. Missing: the formats 0.8 and 0.85, see `C18_violated`, and files whose lines before the first sample go back further, see
`C18_violated_early`. -/
theorem C18_increasing_partial {F : Type} (e : Bool) (readers : F → Readers)
    (drift : F → FileData → Bool → Except Exc HeaderInfo) (readSN : F → Except Exc String) (rg : Bool)
    (version : String) (hv : version = "1.10" ∨ version = "0.91" ∨ version = "0.9" ∨ version = "0.85C")
    (files : List F)
    (hs : ∀ f t, ((readers f).cython = .ok t ∨ (readers f).pandas = .ok t) → SampleSoon t)
    (out : Several F) (h : readSeveral (readFiles e readers drift readSN) files version rg = .ok out) :
    (out.data.map Prod.fst).IsChain (· ≤ ·) := by
  obtain ⟨hist, _, h2, h3, _⟩ := C15_used_or_reported _ rg version files out h
  rw [h3]
  refine (List.isChain_cons.mp (history_increasing ?_ h2)).2
  intro f start v L hpv hL p hp
  have hv9 : v = "0.9" := by
    rcases hpv with h | ⟨rfl, h⟩
    · exact h.1
    · rcases hv with rfl | rfl | rfl | rfl <;> simp at h
  subst hv9
  have := readSingle_first (e := e) (rd := readers f) (offset := start) (rg := rg) (version := "0.9") (out := L) (R := 8192) (c := -4096)
    (by
      intro r hr t ht
      simp only [readersFor, or_true, true_or, if_true, List.mem_cons, List.not_mem_nil, or_false] at hr
      rcases hr with rfl | rfl
      · exact hs f t (Or.inl ht)
      · exact hs f t (Or.inr ht)) hL (by simp [rolloverOf]; norm_num) p hp
  linarith

/-- **C18.** The same for any readers that never place the first sample more than 8192 ms before the end of the
previous file. Missing: readers that do (`C18_violated_counter`, `C18_violated_early`). -/
theorem C18_increasing_if_not_early_partial {F : Type} (ops : FileOps F) (rg : Bool) (version : String)
    (files : List F)
    (hop : ∀ f start v L, PassedVersion version v → ops.read f start rg v = .ok L →
      ∀ p ∈ L.data.head?, start - 8192 ≤ p.1)
    (out : Several F) (h : readSeveral ops files version rg = .ok out) :
    (out.data.map Prod.fst).IsChain (· ≤ ·) := by
  obtain ⟨hist, _, h2, h3, _⟩ := C15_used_or_reported ops rg version files out h
  rw [h3]
  exact (List.isChain_cons.mp (history_increasing hop h2)).2

/-- A small old-format file: metadata and samples at the given counts. -/
def oldFile (times : List Rat) : Table :=
  ⟨false, times.map (fun t => ⟨.D, t, [.num t, .num 1]⟩) ++
    [⟨.M, times.getLast?.getD 0, [.num 0, .num 1, .num 2, .num 3, .num 4, .num 5, .num 6, .num 7, .num 8, .num 9]⟩]⟩

/-- The nominal clock for any file. -/
def nominalDrift (_ : Table) (L : FileData) (_ : Bool) : Except Exc HeaderInfo :=
  .ok ⟨none, none, (L.data.head?.map Prod.fst).getD 0, (L.data.getLast?.map Prod.fst).getD 0, 0, 0,
    128 / 125000, 0, 0, none, 0⟩

/-- Three files in a row, the middle one unreadable. -/
def demoFiles : List (Table × Bool) :=
  [(oldFile [10, 20], true), (oldFile [30, 40], false), (oldFile [30, 40], true)]

/-- Files are readable if flagged. -/
def demoReaders (f : Table × Bool) : Readers :=
  ⟨if f.2 then .ok f.1 else .error .other, .error .corrupt, if f.2 then .ok f.1 else .error .other⟩

example : (readSeveral (readFiles true demoReaders (fun f => nominalDrift f.1) (fun _ => .ok "001")) demoFiles "0.8"
      false).toOption.map (fun out => (out.data, out.problems)) =
    some ([(1893 / 100, some 1), (2893 / 100, some 1), (3893 / 100, some 1), (4893 / 100, some 1)],
      [((oldFile [30, 40], false), .corrupt)]) := by
  decide +kernel

/-- **C18 is violated** for the formats with a 65536 ms counter: the correction by one roll-over adds 8192 ms whatever
the format, so the second of these two files ends up before the end of the first. -/
theorem C18_violated :
    (readSeveral (readFiles true demoReaders (fun f => nominalDrift f.1) (fun _ => .ok "001"))
      [(oldFile [29990, 30000], true), (oldFile [100, 110], true)] "0.85" false).toOption.map
        (fun out => (out.data.map Prod.fst, out.problems.length))
    = some ([29990 + 893 / 100, 30000 + 893 / 100, 8292 + 893 / 100, 8302 + 893 / 100], 0) := by
  decide +kernel

/-- A file with status lines at the counts `a`, `b` before samples at the counts `times`. -/
def statusFirst (a b : Rat) (times : List Rat) : Table :=
  ⟨false, [a, b].map (fun t => ⟨.M, t, [.num 0, .num 1, .num 2, .num 3, .num 4, .num 5, .num 6, .num 7, .num 8, .num 9, .num 10, .num 11]⟩) ++
    times.map (fun t => ⟨.D, t, [.num 1]⟩)⟩

/-- **C18 is violated** if lines before the first sample go back by more than half a roll-over in all (as damaged lines may): the second of these two files
ends up before the end of the first. (`C18_exact_partial` says how far they must go back.) -/
theorem C18_violated_early :
    (∃ out, readSeveral (readFiles true (fun t => ⟨.ok t, .error .corrupt, .error .corrupt⟩) nominalDrift (fun _ => .ok "001"))
      [statusFirst 4000 4000 [4000, 4010], statusFirst 0 4192 [192, 202]] "0.9" false = .ok out ∧ out.problems = [] ∧
      out.data.map Prod.fst = [4000 + 893 / 100, 4010 + 893 / 100, 192 + 893 / 100, 202 + 893 / 100]) ∧
    ¬ [4000 + 893 / 100, 4010 + 893 / 100, 192 + 893 / 100, (202 + 893 / 100 : Rat)].IsChain (· ≤ ·) := by
  constructor
  · have h : ((readSeveral (readFiles true (fun t => ⟨.ok t, .error .corrupt, .error .corrupt⟩) nominalDrift (fun _ => .ok "001"))
        [statusFirst 4000 4000 [4000, 4010], statusFirst 0 4192 [192, 202]] "0.9" false).toOption.map
          fun out => (out.data.map Prod.fst, out.problems))
        = some ([4000 + 893 / 100, 4010 + 893 / 100, 192 + 893 / 100, 202 + 893 / 100], []) := by
      decide +kernel
    generalize readSeveral (readFiles true (fun t => ⟨.ok t, .error .corrupt, .error .corrupt⟩) nominalDrift (fun _ => .ok "001"))
        [statusFirst 4000 4000 [4000, 4010], statusFirst 0 4192 [192, 202]] "0.9" false = res at h ⊢
    cases res with
    | error x => simp [Except.toOption] at h
    | ok out =>
      simp only [Except.toOption, Option.map_some, Option.some.injEq, Prod.mk.injEq] at h
      exact ⟨out, rfl, h.2, h.1⟩
  · simp only [List.isChain_cons_cons, not_and]
    intro _ h
    norm_num at h

/-- Files that begin with a status line meet the hypothesis of `C18_increasing_partial`. -/
example : SampleSoon (statusFirst 3990 3995 [4000, 4010]) ∧ SampleSoon (statusFirst 100 8190 [8000, 8010]) := by
  unfold SampleSoon
  exact ⟨by decide +kernel, by decide +kernel⟩

end Gemlog
