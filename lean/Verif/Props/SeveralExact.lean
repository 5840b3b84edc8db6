import Verif.Props.SeveralBack

/-!
# C18: exactly when the sample times go back from one file to the next
-/

namespace Gemlog

/-- The first line is placed within half a turn of `offset`, and the first sample as far from it as the counter has moved. -/
theorem processData_place {e : Bool} {t : Table} {offset : Rat} {version : String} {rg : Bool}
    {out : FileData} (h : processData e t offset version rg = .ok out) {R : Rat} (hR : rolloverOf version = some R) {r : TRow} {l : List TRow} (hr : t.rows = r :: l) :
    ∀ p ∈ out.data.head?, ∃ m : Rat, (∃ k : Int, m = r.saw + k * R) ∧ -(R / 2) ≤ m - offset ∧ m - offset < R / 2 ∧ p.1 = m + moveToSample R t.rows := by
  obtain ⟨q⟩ := process_ok h
  have hpos : 0 < R := by rcases rollover_eq hR with rfl | rfl <;> norm_num
  have hRq : q.R = R := by have := q.hR; rw [hR] at this; simpa using this.symm
  have hms := q.hms
  rw [hRq] at hms
  obtain ⟨hcong, hfirst⟩ := C08_corrected_congruent R offset hpos _ _ hms
  intro p hp
  rw [q.hdata] at hp
  unfold correctedMillis at hms
  rw [correctedRaw_eq_walk] at hms
  cases hw : walk R none 0 (t.rows.map TRow.saw) with
  | nil => rw [hw] at hms; simp at hms
  | cons first rest =>
    rw [hw] at hms
    simp only [Option.some.injEq] at hms
    rw [← hw] at hms
    obtain ⟨d, hd, hpd⟩ : ∃ d, ((q.ms.zip t.rows).filter fun p => p.2.kind == .D).head? = some d ∧ p.1 = d.1 := by
      generalize hL : (q.ms.zip t.rows).filter (fun p => p.2.kind == .D) = L at hp
      generalize (if version ∈ ["1.10", "0.9", "0.85C"] then cumsumNaN 0 q.adc else q.adc) = vals at hp
      cases L with
      | nil => simp at hp
      | cons d L =>
        cases vals with
        | nil => simp at hp
        | cons v vals =>
          simp only [List.map_cons, List.zip_cons_cons, List.head?_cons, Option.mem_def, Option.some.injEq] at hp
          exact ⟨d, rfl, by rw [← hp]⟩
    have hhead : ((walk R none 0 (t.rows.map TRow.saw)).map fun m => m + offsetShift R offset first).head? = some (first + offsetShift R offset first) := by
      rw [hw]; rfl
    have hh : q.ms.head? = some (first + offsetShift R offset first) := by rw [← hms]; exact hhead
    rw [← hms] at hd
    have := walk_first_sample R (offsetShift R offset first) hpos t.rows none 0 _ d hhead hd
    have hf := hfirst _ hh
    refine ⟨_, ?_, hf.1, hf.2, hpd.trans this⟩
    rw [hr] at hcong
    cases hc : q.ms with
    | nil => rw [hc] at hh; simp at hh
    | cons m ms =>
      rw [hc] at hh hcong
      simp only [List.head?_cons, Option.some.injEq] at hh
      simp only [List.map_cons, List.forall₂_cons] at hcong
      obtain ⟨k, hk⟩ := hcong.1
      exact ⟨k, by rw [← hh, hk]⟩

theorem readSingle_place {e : Bool} {rd : Readers} {offset : Rat} {rg : Bool} {version : String} {out : FileData} {R : Rat} {t : Table}
    (hs : ∀ q ∈ readersFor rd version, ∀ t', q = .ok t' → t' = t)
    (h : readSingle e rd offset rg version = .ok out) (hR : rolloverOf version = some R) {r : TRow} {l : List TRow} (hr : t.rows = r :: l) :
    ∀ p ∈ out.data.head?, ∃ m : Rat, (∃ k : Int, m = r.saw + k * R) ∧ -(R / 2) ≤ m - offset ∧ m - offset < R / 2 ∧
      p.1 = m + moveToSample R t.rows + 893 / 100 := by
  rw [C14_first_decisive_reader] at h
  split at h
  · simp at h
  · simp at h
  · rename_i o ho
    obtain ⟨q, hq, hro⟩ := List.mem_map.mp (List.mem_of_find?_eq_some ho)
    split_ifs at h
    simp only [Except.ok.injEq] at h
    cases q with
    | error x => simp [outcomeOf] at hro
    | ok t' =>
      have hc := hs _ hq t' rfl
      subst hc
      have hf := processData_place (show processData e t' offset version rg = .ok o from hro) hR hr
      intro p hp
      rw [← h] at hp
      simp only [List.head?_map, Option.mem_def, Option.map_eq_some_iff] at hp
      obtain ⟨q, hq, rfl⟩ := hp
      obtain ⟨m, a, b, c, d⟩ := hf q hq
      exact ⟨m, a, b, c, by simp only; rw [d]⟩

/-- Two numbers in the same half-open interval of one turn that differ by whole turns are equal. -/
theorem same_turn {R x y : Rat} (hR : 0 < R) (k : Int) (h : x = y + k * R) (hx1 : -(R / 2) ≤ x) (hx2 : x < R / 2) (hy1 : -(R / 2) ≤ y) (hy2 : y < R / 2) : x = y := by
  have h1 : (k : Rat) * R < 1 * R := by linarith
  have h2 : (-1 : Rat) * R < k * R := by linarith
  have h3 := lt_of_mul_lt_mul_right h1 hR.le
  have h4 := lt_of_mul_lt_mul_right h2 hR.le
  have h5 : k < 1 := by exact_mod_cast h3
  have h6 : -1 < k := by exact_mod_cast h4
  have : k = 0 := by omega
  rw [h, this]; simp

/-- **C18, exactly, for one more file of any format.** Let a record that ends at `e1` be continued with a file that is accepted. `R` is one turn of the counter
in the file's format, and every reader that can read the file finds the same lines. The count of the first line is that of `e1`, moved by `x`, less than half a turn, and between the first line and the first sample
the counter moves by `moveToSample`. Then the first sample is put `y = x + moveToSample + 8.93` ms after `e1` if that is not negative, and 8192 ms later than that
if it is. So the sample times of the longer record never decrease if and only if those of the shorter one do not and `y` is at least -8192. Missing: that they never decrease,
which is false: `y` may be less, by the old formats' longer turn (`C18_violated_counter`) or by lines that go back (`C18_violated_early`). -/
theorem C18_exact_partial {F : Type} (e : Bool) (readers : F → Readers) (drift : F → FileData → Bool → Except Exc HeaderInfo) (readSN : F → Except Exc String)
    (rg : Bool) (version : String) (R : Rat)
    (hv : (version = "0.8" ∨ version = "0.85") ∧ R = 65536 ∨ (version = "1.10" ∨ version = "0.91" ∨ version = "0.9" ∨ version = "0.85C") ∧ R = 8192)
    (files : List F) (f : F) (out1 out : Several F)
    (h1 : readSeveral (readFiles e readers drift readSN) files version rg = .ok out1) (e1 : Rat × Option Rat) (he : out1.data.getLast? = some e1)
    (h : readSeveral (readFiles e readers drift readSN) (files ++ [f]) version rg = .ok out) (hp : out.problems = out1.problems)
    (t : Table) (ht : ∀ t', (readers f).cython = .ok t' ∨ (readers f).pandas = .ok t' ∨ (readers f).old = .ok t' → t' = t)
    (r : TRow) (l : List TRow) (hr : t.rows = r :: l)
    (x : Rat) (k : Int) (hx : r.saw = e1.1 + x + k * R) (hx1 : -(R / 2) ≤ x) (hx2 : x < R / 2) :
    let y := x + moveToSample R t.rows + 893 / 100
    (out.data[out1.data.length]?).map Prod.fst = some (e1.1 + if 0 ≤ y then y else y + 8192) ∧
    ((out.data.map Prod.fst).IsChain (· ≤ ·) ↔ (out1.data.map Prod.fst).IsChain (· ≤ ·) ∧ -8192 ≤ y) := by
  intro y
  have hRpos : 0 < R := by rcases hv with ⟨_, h⟩ | ⟨_, h⟩ <;> rw [h] <;> norm_num
  unfold readSeveral at h1 h
  have hstart := severalLoop_start _ rg version files _ out1 (by simp) h1 e1 he
  rw [severalLoop_append, h1] at h
  simp only [Except.bind, severalLoop] at h
  cases hs : severalStep (readFiles e readers drift readSN) rg version out1 f with
  | error x => rw [hs] at h; simp at h
  | ok acc =>
    rw [hs] at h
    simp only [Except.ok.injEq] at h
    subst h
    unfold severalStep at hs
    have hout := readOne_outcome (readFiles e readers drift readSN) rg version f out1.startMillis
    obtain ⟨row, q, hro⟩ : ∃ row q, readOne (readFiles e readers drift readSN) rg version f out1.startMillis = (row, q) := ⟨_, _, rfl⟩
    rw [hro] at hs hout
    cases q with
    | error x =>
      simp only at hs
      split at hs
      · simp only [Except.ok.injEq] at hs
        rw [← hs] at hp
        simp at hp
      · simp at hs
    | ok P =>
      simp only [Except.ok.injEq] at hs
      have hdata : acc.data = out1.data ++ P.data := by rw [← hs]
      simp only at hout
      cases hout with
      | used v hv' L _ hL hpl hst info hdr sn hsn =>
        have hvR : rolloverOf v = some R := by
          rcases hv with ⟨hv, rfl⟩ | ⟨hv, rfl⟩
          · have : v = version := by
              rcases hv' with ⟨_, hx⟩ | ⟨hx, _⟩
              · rcases hv with rfl | rfl <;> simp at hx
              · exact hx
            subst this
            rcases hv with rfl | rfl <;> simp [rolloverOf] <;> norm_num
          · have : v = "0.9" := by
              rcases hv' with hx | ⟨rfl, hx⟩
              · exact hx.1
              · rcases hv with rfl | rfl | rfl | rfl <;> simp at hx
            subst this
            simp [rolloverOf]; norm_num
        have hsame : ∀ q ∈ readersFor (readers f) v, ∀ t', q = .ok t' → t' = t := by
          intro q hq t' hq'
          unfold readersFor at hq
          split at hq
          · simp only [List.mem_cons, List.not_mem_nil, or_false] at hq
            rcases hq with rfl | rfl
            · exact ht t' (Or.inl hq')
            · exact ht t' (Or.inr (Or.inl hq'))
          · simp only [List.mem_cons, List.not_mem_nil, or_false] at hq
            subst hq
            exact ht t' (Or.inr (Or.inr hq'))
        have hfirst := readSingle_place (e := e) hsame hL hvR hr
        rw [hstart] at hpl hfirst
        obtain ⟨p, L', hLd⟩ : ∃ p L', L.data = p :: L' := by
          cases hc : L.data with
          | cons p L' => exact ⟨p, L', rfl⟩
          | nil =>
            cases hpl with
            | asRead _ hne => exact absurd hc hne
            | moved hm => rw [hc] at hm; simp at hm
        obtain ⟨m, ⟨k', hk'⟩, hb1, hb2, hpm⟩ := hfirst p (by simp [hLd])
        have hm : m - e1.1 = x :=
          same_turn hRpos (k + k') (by rw [hk', hx]; push_cast; ring) hb1 hb2 hx1 hx2
        have hpy : p.1 = e1.1 + y := by
          rw [hpm]
          show m + _ + _ = e1.1 + (x + _ + _)
          rw [← hm]; ring
        have hPd : ∃ w P', P.data = (e1.1 + (if 0 ≤ y then y else y + 8192), w) :: P' := by
          cases hpl with
          | asRead hle _ =>
            have := hle p (by simp [hLd])
            rw [if_pos (by linarith), ← hpy]
            exact ⟨p.2, L', hLd⟩
          | moved hlt =>
            obtain ⟨p', hp', hlt⟩ := hlt
            rw [hLd] at hp'
            simp only [List.head?_cons, Option.mem_def, Option.some.injEq] at hp'
            subst hp'
            rw [if_neg (by intro hc; linarith)]
            refine ⟨p.2, L'.map fun q => (q.1 + 8192, q.2), ?_⟩
            simp only [movedBy, hLd, List.map_cons, List.cons.injEq, and_true, Prod.mk.injEq]
            rw [hpy]; ring
        obtain ⟨w, P', hPd⟩ := hPd
        have hPch : (P.data.map Prod.fst).IsChain (· ≤ ·) := by
          unfold Steady at hst
          exact hst.imp fun a b hab => hab.1
        rw [hdata]
        constructor
        · rw [hPd]; simp
        · rw [List.map_append, List.isChain_append]
          have hlast : (out1.data.map Prod.fst).getLast? = some e1.1 := by simp [he]
          have hhead : (P.data.map Prod.fst).head? = some (e1.1 + if 0 ≤ y then y else y + 8192) := by rw [hPd]; rfl
          rw [hlast, hhead]
          constructor
          · rintro ⟨c1, -, c3⟩
            refine ⟨c1, ?_⟩
            have := c3 e1.1 rfl _ rfl
            split_ifs at this <;> linarith
          · rintro ⟨c1, c2⟩
            refine ⟨c1, hPch, ?_⟩
            intro a ha b hb
            simp only [Option.mem_def, Option.some.injEq] at ha hb
            rw [← ha, ← hb]
            split_ifs <;> linarith

/-- The files of `C18_violated_early`: the record ends at 4018.93; the first line of the second file is at 0, that is `x = -4018.93`, and the lines before its first sample
go back by 8000 ms, so `y = -12010`, less than -8192. -/
example : moveToSample 8192 (statusFirst 0 4192 [192, 202]).rows = -8000 ∧
    (0 : Rat) = 4010 + 893 / 100 + -(4010 + 893 / 100) + (0 : Int) * 8192 ∧
    (readSeveral (readFiles true (fun t => ⟨.ok t, .error .corrupt, .error .corrupt⟩) nominalDrift (fun _ => .ok "001"))
      [statusFirst 4000 4000 [4000, 4010]] "0.9" false).toOption.map (fun out => (out.data.getLast?.map Prod.fst, out.problems)) = some (some (4010 + 893 / 100), []) ∧
    (readSeveral (readFiles true (fun t => ⟨.ok t, .error .corrupt, .error .corrupt⟩) nominalDrift (fun _ => .ok "001"))
      ([statusFirst 4000 4000 [4000, 4010]] ++ [statusFirst 0 4192 [192, 202]]) "0.9" false).toOption.map (fun out => out.problems) = some [] := by
  refine ⟨by decide +kernel, by norm_num, by decide +kernel, by decide +kernel⟩

/-- A file that continues a record without going back: `x = 89.07`, `y = 108`. -/
example : moveToSample 8192 (statusFirst 4108 4113 [4118]).rows = 10 ∧ (4108 : Rat) = 4010 + 893 / 100 + 8907 / 100 + (0 : Int) * 8192 := by
  exact ⟨by decide +kernel, by norm_num⟩

end Gemlog
