import Verif.Props.ReadSeveral

/-!
# When the old formats go back in time

C18 for the formats with a 65536 ms counter: how far the first sample of a file lies behind the end of the record before it, for every count in
its first line.
-/

namespace Gemlog

theorem severalLoop_append {F : Type} (ops : FileOps F) (rg : Bool) (version : String) (b : List F) : ∀ (a : List F) (acc : Several F),
    severalLoop ops rg version (a ++ b) acc = (severalLoop ops rg version a acc).bind (severalLoop ops rg version b)
  | [], _ => rfl
  | f :: a, acc => by
    simp only [List.cons_append, severalLoop]
    cases severalStep ops rg version acc f with
    | error x => rfl
    | ok acc' => exact severalLoop_append ops rg version b a acc'

/-- The end of the record, if it has any sample, is where the next file is placed. -/
theorem severalLoop_start {F : Type} (ops : FileOps F) (rg : Bool) (version : String) : ∀ (a : List F) (acc out : Several F),
    (∀ p ∈ acc.data.getLast?, acc.startMillis = p.1) → severalLoop ops rg version a acc = .ok out → ∀ p ∈ out.data.getLast?, out.startMillis = p.1
  | [], acc, out, hi, h => by
    simp only [severalLoop, Except.ok.injEq] at h
    rw [← h]; exact hi
  | f :: a, acc, out, hi, h => by
    simp only [severalLoop] at h
    cases hs : severalStep ops rg version acc f with
    | error x => rw [hs] at h; simp at h
    | ok acc' =>
      rw [hs] at h
      refine severalLoop_start ops rg version a acc' out ?_ h
      unfold severalStep at hs
      obtain ⟨row, r, hro⟩ : ∃ row r, readOne ops rg version f acc.startMillis = (row, r) := ⟨_, _, rfl⟩
      rw [hro] at hs
      cases r with
      | ok L =>
        simp only [Except.ok.injEq] at hs
        rw [← hs]
        intro p hp
        simp only [Option.mem_def] at hp
        simp [lastTime, hp]
      | error x =>
        simp only at hs
        split at hs
        · simp only [Except.ok.injEq] at hs
          rw [← hs]; exact hi
        · simp at hs

/-- The first sample of a file whose first line is a sample with count `c`: within half a turn of `offset`, 8.93 ms late. -/
theorem readSingle_old_first {e : Bool} {rd : Readers} {offset : Rat} {rg : Bool} {version : String} {out : FileData} {t : Table} {r : TRow} {l : List TRow}
    (hv : version = "0.8" ∨ version = "0.85") (ht : rd.old = .ok t) (hr : t.rows = r :: l) (hD : r.kind = .D)
    (h : readSingle e rd offset rg version = .ok out) :
    ∀ p ∈ out.data.head?, (∃ k : Int, p.1 - 893 / 100 = r.saw + k * 65536) ∧ -32768 ≤ p.1 - 893 / 100 - offset ∧ p.1 - 893 / 100 - offset < 32768 := by
  have hR : rolloverOf version = some 65536 := by rcases hv with rfl | rfl <;> simp [rolloverOf] <;> norm_num
  have hnew : ¬ (version = "1.10" ∨ version = "0.91" ∨ version = "0.9" ∨ version = "0.85C") := by rcases hv with rfl | rfl <;> decide
  rw [C14_first_decisive_reader] at h
  simp only [readersFor, hnew, if_false, ht, List.map_cons, List.map_nil] at h
  split at h
  · simp at h
  · simp at h
  · rename_i o ho
    obtain ⟨r', hr', hro⟩ : ∃ r', r' ∈ [outcomeOf e offset rg version (.ok t)] ∧ r' = .ok o := ⟨_, List.mem_of_find?_eq_some ho, rfl⟩
    simp only [List.mem_cons, List.not_mem_nil, or_false] at hr'
    subst hr'
    split_ifs at h
    simp only [Except.ok.injEq] at h
    have hp : processData e t offset version rg = .ok o := hro
    have hf := processData_soon hp hR
    obtain ⟨q⟩ := process_ok hp
    have hRq : q.R = 65536 := by have := q.hR; rw [hR] at this; simpa using this.symm
    have hms := q.hms
    rw [hRq, hr] at hms
    obtain ⟨hc, _⟩ := C08_corrected_congruent 65536 offset (by norm_num) _ _ hms
    have hmove : moveToSample 65536 t.rows = 0 := by rw [hr]; simp [moveToSample, hD]
    rw [hmove] at hf
    intro p hp'
    rw [← h] at hp'
    simp only [List.head?_map, Option.mem_def, Option.map_eq_some_iff] at hp'
    obtain ⟨q', hq', rfl⟩ := hp'
    have hb := hf q' hq'
    have hm : q'.1 ∈ q.ms.head? := by
      rw [q.hdata] at hq'
      generalize (if version ∈ ["1.10", "0.9", "0.85C"] then cumsumNaN 0 q.adc else q.adc) = vals at hq'
      rw [hr] at hq'
      cases hm : q.ms with
      | nil => rw [hm] at hq'; simp at hq'
      | cons m ms =>
        rw [hm] at hq'
        simp only [List.zip_cons_cons, List.filter_cons, hD, beq_self_eq_true, if_true, List.map_cons] at hq'
        cases vals with
        | nil => simp at hq'
        | cons v vals =>
          simp only [List.zip_cons_cons, List.head?_cons, Option.some.injEq] at hq'
          simp [← hq']
    refine ⟨?_, by linarith [hb.1], by linarith [hb.2]⟩
    simp only [List.map_cons] at hc
    cases hc' : q.ms with
    | nil => rw [hc'] at hm; simp at hm
    | cons m ms =>
      rw [hc'] at hm hc
      simp only [List.head?_cons, Option.mem_def, Option.some.injEq] at hm
      rw [List.forall₂_cons] at hc
      obtain ⟨k, hk⟩ := hc.1
      exact ⟨k, by rw [← hm, hk]; ring⟩

/-- **C18 is violated** by every file of the formats 0.8 and 0.85 whose counter starts at the wrong place. Let a record that ends at `e1` be continued with a file
that is accepted, and whose first line is a sample with a count `d` ms behind `e1` (up to whole turns of the counter), where `d` is between 8200.93 and 32768. Then the
file is moved on by 8192 ms only, as if its counter had 8192 ms per turn, its first sample is put `d - 8200.93` ms before the end of the record, and the
sample times decrease. -/
theorem C18_violated_counter {F : Type} (e : Bool) (readers : F → Readers) (drift : F → FileData → Bool → Except Exc HeaderInfo) (readSN : F → Except Exc String)
    (rg : Bool) (version : String) (hv : version = "0.8" ∨ version = "0.85") (files : List F) (f : F) (out1 out : Several F)
    (h1 : readSeveral (readFiles e readers drift readSN) files version rg = .ok out1) (e1 : Rat × Option Rat) (he : out1.data.getLast? = some e1)
    (h : readSeveral (readFiles e readers drift readSN) (files ++ [f]) version rg = .ok out) (hp : out.problems = out1.problems)
    (t : Table) (ht : (readers f).old = .ok t) (r : TRow) (l : List TRow) (hr : t.rows = r :: l) (hD : r.kind = .D)
    (d : Rat) (k : Int) (hd : r.saw = e1.1 - d + k * 65536) (hlo : 8200 + 93 / 100 < d) (hhi : d ≤ 32768) :
    (out.data[out1.data.length]?).map Prod.fst = some (e1.1 - (d - (8200 + 93 / 100))) ∧ ¬ (out.data.map Prod.fst).IsChain (· ≤ ·) := by
  unfold readSeveral at h1 h
  have hstart := severalLoop_start _ rg version files _ out1 (by simp) h1 e1 he
  rw [severalLoop_append, h1] at h
  simp only [Except.bind, severalLoop] at h
  cases hs : severalStep (readFiles e readers drift readSN) rg version out1 f with
  | error x => rw [hs] at h; simp at h
  | ok acc =>
    rw [hs] at h
    simp only [Except.ok.injEq] at h
    subst h
    unfold severalStep at hs
    have hout := readOne_outcome (readFiles e readers drift readSN) rg version f out1.startMillis
    obtain ⟨row, q, hro⟩ : ∃ row q, readOne (readFiles e readers drift readSN) rg version f out1.startMillis = (row, q) := ⟨_, _, rfl⟩
    rw [hro] at hs hout
    cases q with
    | error x =>
      simp only at hs
      split at hs
      · simp only [Except.ok.injEq] at hs
        rw [← hs] at hp
        simp at hp
      · simp at hs
    | ok P =>
      simp only [Except.ok.injEq] at hs
      have hdata : acc.data = out1.data ++ P.data := by rw [← hs]
      simp only at hout
      cases hout with
      | used v hv' L _ hL hpl hst info hdr sn hsn =>
        have hvv : v = version := by
          rcases hv' with ⟨_, hx⟩ | ⟨hx, _⟩
          · rcases hv with rfl | rfl <;> simp at hx
          · exact hx
        subst hvv
        have hfirst := readSingle_old_first (e := e) hv ht hr hD hL
        rw [hstart] at hpl hfirst
        obtain ⟨p, L', hLd⟩ : ∃ p L', L.data = p :: L' := by
          cases hc : L.data with
          | cons p L' => exact ⟨p, L', rfl⟩
          | nil =>
            cases hpl with
            | asRead _ hne => exact absurd hc hne
            | moved hm => rw [hc] at hm; simp at hm
        obtain ⟨⟨k', hk'⟩, hb1, hb2⟩ := hfirst p (by simp [hLd])
        have hK : p.1 = e1.1 - d + 893 / 100 := by
          have hk0 : k + k' = 0 := by
            have e3 : p.1 - 893 / 100 - e1.1 = -d + ((k + k' : Int) : Rat) * 65536 := by push_cast; rw [hk', hd]; ring
            rw [e3] at hb1 hb2
            have h5 : (-1 : Rat) < ((k + k' : Int) : Rat) := by linarith
            have h6 : ((k + k' : Int) : Rat) < 1 := by linarith
            have h7 : (-1 : Int) < k + k' := by exact_mod_cast h5
            have h8 : k + k' < (1 : Int) := by exact_mod_cast h6
            omega
          have hkr : (k : Rat) + k' = 0 := by exact_mod_cast hk0
          have : p.1 = e1.1 - d + 893 / 100 + ((k : Rat) + k') * 65536 := by linarith
          rw [this, hkr]; ring
        have hPd : ∃ x P', P.data = (e1.1 - (d - (8200 + 93 / 100)), x) :: P' := by
          cases hpl with
          | asRead hle _ =>
            have := hle p (by simp [hLd])
            exfalso; linarith
          | moved _ =>
            refine ⟨p.2, L'.map fun q => (q.1 + 8192, q.2), ?_⟩
            simp only [movedBy, hLd, List.map_cons, List.cons.injEq, and_true, Prod.mk.injEq]
            rw [hK]; ring
        obtain ⟨x, P', hPd⟩ := hPd
        rw [hdata, hPd]
        constructor
        · simp
        · intro hch
          rw [List.map_append, List.isChain_append] at hch
          have := hch.2.2 e1.1 (by simp [he]) (e1.1 - (d - (8200 + 93 / 100))) (by simp)
          linarith

/-- The files of `C18_violated`: the counter of the second starts 29908.93 ms behind the end of the record. -/
example : (readSeveral (readFiles true demoReaders (fun f => nominalDrift f.1) (fun _ => .ok "001")) [(oldFile [29990, 30000], true)] "0.85" false).toOption.map
      (fun out1 => (out1.data.getLast?, out1.problems)) = some (some (30000 + 893 / 100, some 1), []) ∧
    (readSeveral (readFiles true demoReaders (fun f => nominalDrift f.1) (fun _ => .ok "001")) ([(oldFile [29990, 30000], true)] ++ [(oldFile [100, 110], true)]) "0.85" false).toOption.map
      Several.problems = some [] ∧
    ∃ t r l, (demoReaders (oldFile [100, 110], true)).old = .ok t ∧ t.rows = r :: l ∧ r.kind = .D ∧
      ∃ d : Rat, r.saw = 30000 + 893 / 100 - d + (0 : Int) * 65536 ∧ 8200 + 93 / 100 < d ∧ d ≤ 32768 := by
  refine ⟨by decide +kernel, by decide +kernel, oldFile [100, 110], _, _, rfl, rfl, rfl, 29908 + 93 / 100, ?_, by norm_num, by norm_num⟩
  simp only; norm_num

end Gemlog
