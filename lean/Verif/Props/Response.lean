import Verif.Spec.Response
import Mathlib.Tactic.FieldSimp
import Mathlib.Tactic.Ring
import Mathlib.Algebra.BigOperators.Group.List.Basic

/-!
# Property C92: the instrument response
-/

namespace Gemlog

theorem respGo_prod (f : Rat) : ∀ (l : List Stage) (a : Rat), l.foldl (fun a s => a * (s.gain * s.shape f)) a = a * (l.map fun s => s.gain * s.shape f).prod := by
  intro l
  induction l with
  | nil => intro a; simp
  | cons s l ih => intro a; rw [List.foldl_cons, ih, List.map_cons, List.prod_cons]; ring

theorem Resp.at_cons (s : Stage) (rest : List Stage) (v : Rat) (u : List Nat) (f : Rat) :
    (Resp.mk (s :: rest) v u).at f = (s.gain * s.shape f) * (rest.map fun s => s.gain * s.shape f).prod := by
  unfold Resp.at
  rw [respGo_prod, List.map_cons, List.prod_cons, one_mul]

/-- **C92, the response.** If the files of the package hold at least one stage for the sensor and at least three for the logger, the response for high or
low gain (in any capitalisation) is: the first stage of the sensor, followed by all stages of the logger but its first; its units are those of the
sensor's first stage, and its sensitivity is the product of the gains of that stage, of the logger's third stage and of the filter. A text other
than high and low is refused, unless a file for the logger is named; then the gain is not looked at. -/
theorem C92_response (k : Rat) (sensors loggers : List Nat → Except Exc Resp) (gain : List Nat) (s a b adc : Stage) (ss ls : List Stage)
    (v1 v2 : Rat) (u1 u2 : List Nat) (hs : sensors sensorName = .ok ⟨s :: ss, v1, u1⟩) :
    ((lower gain = bytes "high" ∨ lower gain = bytes "low") → loggers loggerName = .ok ⟨a :: b :: adc :: ls, v2, u2⟩ →
      getGemResponse k sensors loggers gain [] [] = .ok ⟨s :: b :: adc :: ls, s.gain * adc.gain * k, s.units⟩) ∧
    (¬(lower gain = bytes "high" ∨ lower gain = bytes "low") → getGemResponse k sensors loggers gain [] [] = .error .other) ∧
    (∀ file, file ≠ [] → loggers file = .ok ⟨a :: b :: adc :: ls, v2, u2⟩ →
      getGemResponse k sensors loggers gain [] file = .ok ⟨s :: b :: adc :: ls, s.gain * adc.gain * k, s.units⟩) := by
  refine ⟨?_, ?_, ?_⟩
  · intro hg hl
    have hc : chooseLogger gain [] = .ok loggerName := by
      unfold chooseLogger
      rw [if_pos rfl]
      rcases hg with h | h
      · rw [if_pos h]
      · by_cases h' : lower gain = bytes "high"
        · rw [if_pos h']
        · rw [if_neg h', if_pos h]
    unfold getGemResponse
    rw [if_pos rfl, hs, hc]
    simp only [bind, Except.bind]
    rw [hl]
    rfl
  · intro hg
    have hc : chooseLogger gain [] = .error .other := by
      unfold chooseLogger
      rw [if_pos rfl, if_neg (fun h => hg (.inl h)), if_neg (fun h => hg (.inr h))]
    unfold getGemResponse
    rw [if_pos rfl, hs, hc]
    rfl
  · intro file hf hl
    have hc : chooseLogger gain file = .ok file := by
      unfold chooseLogger
      rw [if_neg hf]
    unfold getGemResponse
    rw [if_pos rfl, hs, hc]
    simp only [bind, Except.bind]
    rw [hl]
    rfl

/-- Two texts that differ in capitalisation only, and one that is refused. -/
example : lower (bytes "High") = bytes "high" ∧ lower (bytes "LOW") = bytes "low" ∧ ¬(lower (bytes "half") = bytes "high" ∨ lower (bytes "half") = bytes "low") := by
  decide +kernel

/-- **C92, pressures.** Deconvolving what a high-gain logger recorded gives back the pressure, at every frequency at which no stage is deaf, for every
trace of a stream in order. So it is with any logger whose file is named. -/
theorem C92_pressure (k : Rat) (sensors loggers : List Nat → Except Exc Resp) (gain file : List Nat) (s a b adc : Stage) (ss ls : List Stage)
    (v1 v2 : Rat) (u1 u2 : List Nat) (hs : sensors sensorName = .ok ⟨s :: ss, v1, u1⟩)
    (hfile : (file = [] ∧ lower gain = bytes "high" ∧ loggers loggerName = .ok ⟨a :: b :: adc :: ls, v2, u2⟩) ∨
      (file ≠ [] ∧ loggers file = .ok ⟨a :: b :: adc :: ls, v2, u2⟩))
    (ps : List (Rat → Rat)) :
    ∃ out : List (Rat → Rat), deconvolveGem k sensors loggers (.stream (ps.map fun p f => countsOf s (b :: adc :: ls) (p f) f)) gain [] file
        = .ok (.stream out) ∧ out.length = ps.length ∧
      ∀ (i : Nat) p q, ps[i]? = some p → out[i]? = some q → ∀ f, (∀ t ∈ s :: b :: adc :: ls, t.gain * t.shape f ≠ 0) → q f = p f := by
  have hr : getGemResponse k sensors loggers gain [] file = .ok ⟨s :: b :: adc :: ls, s.gain * adc.gain * k, s.units⟩ := by
    obtain ⟨h1, _, h3⟩ := C92_response k sensors loggers gain s a b adc ss ls v1 v2 u1 u2 hs
    rcases hfile with ⟨rfl, h, hl⟩ | ⟨h, hl⟩
    · exact h1 (.inl h) hl
    · exact h3 file h hl
  refine ⟨(ps.map fun p f => countsOf s (b :: adc :: ls) (p f) f).map (removeResp ⟨s :: b :: adc :: ls, s.gain * adc.gain * k, s.units⟩), ?_, by simp, ?_⟩
  · cases ps with
    | nil => rfl
    | cons p ps =>
      unfold deconvolveGem
      rw [List.map_cons]
      simp only
      rw [hr]
      rfl
  · intro i p q hp hq f hf
    rw [List.getElem?_map, List.getElem?_map, hp] at hq
    simp only [Option.map_some, Option.some.injEq] at hq
    subst hq
    have hne : ∀ l : List Stage, (∀ t ∈ l, t.gain * t.shape f ≠ 0) → (l.map fun s => s.gain * s.shape f).prod ≠ 0 := by
      intro l
      induction l with
      | nil => intro _; simp
      | cons t l ih =>
        intro h
        rw [List.map_cons, List.prod_cons]
        exact mul_ne_zero (h t (by simp)) (ih fun x hx => h x (by simp [hx]))
    have h1 := hf s (by simp)
    have h2 := hne (b :: adc :: ls) (fun t ht => hf t (by simp at ht ⊢; tauto))
    generalize hP : ((b :: adc :: ls).map fun s => s.gain * s.shape f).prod = P at h2
    have h3 : s.gain ≠ 0 := left_ne_zero_of_mul h1
    have h4 : s.shape f ≠ 0 := right_ne_zero_of_mul h1
    unfold removeResp countsOf
    rw [Resp.at_cons, hP]
    field_simp
    rw [hP]

/-- **C92, refusals.** A gain that is neither high nor low is refused for every trace and every stream with a trace in it, so nothing is changed; data of
another type are always refused. -/
theorem C92_refused (k : Rat) (sensors loggers : List Nat → Except Exc Resp) (gain : List Nat) (data : WaveData) (r : Resp)
    (hs : sensors sensorName = .ok r) (hd : data = .other ∨ (data ≠ .stream [] ∧ lower gain ≠ bytes "high" ∧ lower gain ≠ bytes "low")) :
    deconvolveGem k sensors loggers data gain [] [] = .error .other := by
  rcases hd with rfl | ⟨h1, h2, h3⟩
  · rfl
  · have hr : getGemResponse k sensors loggers gain [] [] = .error .other := by
      have hc : chooseLogger gain [] = .error .other := by
        unfold chooseLogger
        rw [if_pos rfl, if_neg h2, if_neg h3]
      unfold getGemResponse
      rw [if_pos rfl, hs, hc]
      rfl
    cases data with
    | other => rfl
    | trace a => unfold deconvolveGem; simp only; rw [hr]; rfl
    | stream l =>
      cases l with
      | nil => exact absurd rfl h1
      | cons a l => unfold deconvolveGem; simp only; rw [hr]; rfl

/-- A stream with one trace and the gain `half`. -/
example : WaveData.stream [fun _ => 1] ≠ .stream [] ∧ lower (bytes "half") ≠ bytes "high" ∧ lower (bytes "half") ≠ bytes "low" := by
  refine ⟨by simp, ?_⟩
  decide +kernel

/-- **C92, violated.** With the gain `low` the same file is used as for `high`: the data of a logger set to low gain, which are half as large, come out
as half the true pressure at every frequency, and deconvolving with `low` is the same as with `high`, whatever the data. -/
theorem C92_violated_low (k : Rat) (sensors loggers : List Nat → Except Exc Resp) (low high : List Nat) (hl : lower low = bytes "low")
    (hh : lower high = bytes "high") :
    (∀ (data : WaveData) (file : List Nat), deconvolveGem k sensors loggers data low file [] = deconvolveGem k sensors loggers data high file []) ∧
    ∀ (s a b adc : Stage) (ss ls : List Stage) (v1 v2 : Rat) (u1 u2 : List Nat), sensors sensorName = .ok ⟨s :: ss, v1, u1⟩ →
      loggers loggerName = .ok ⟨a :: b :: adc :: ls, v2, u2⟩ → ∀ p : Rat → Rat,
      ∃ q : Rat → Rat, deconvolveGem k sensors loggers (.trace fun f => countsOf s (halfGain (b :: adc :: ls)) (p f) f) low [] [] = .ok (.trace q) ∧
        ∀ f, (∀ t ∈ s :: b :: adc :: ls, t.gain * t.shape f ≠ 0) → q f = p f / 2 := by
  refine ⟨?_, ?_⟩
  · intro data file
    have hc : chooseLogger low [] = chooseLogger high [] := by
      unfold chooseLogger
      rw [hl, hh]
      rfl
    unfold deconvolveGem getGemResponse
    rw [hc]
  · intro s a b adc ss ls v1 v2 u1 u2 hs hg p
    have hr := (C92_response k sensors loggers low s a b adc ss ls v1 v2 u1 u2 hs).1 (.inr hl) hg
    refine ⟨removeResp ⟨s :: b :: adc :: ls, s.gain * adc.gain * k, s.units⟩ fun f => countsOf s (halfGain (b :: adc :: ls)) (p f) f, ?_, ?_⟩
    · unfold deconvolveGem
      simp only
      rw [hr]
      rfl
    · intro f hf
      have hne : ∀ l : List Stage, (∀ t ∈ l, t.gain * t.shape f ≠ 0) → (l.map fun s => s.gain * s.shape f).prod ≠ 0 := by
        intro l
        induction l with
        | nil => intro _; simp
        | cons t l ih =>
          intro h
          rw [List.map_cons, List.prod_cons]
          exact mul_ne_zero (h t (by simp)) (ih fun x hx => h x (by simp [hx]))
      have h1 := hf s (by simp)
      have h2 := hf b (by simp)
      have h3 := hf adc (by simp)
      have h4 := hne ls (fun t ht => hf t (by simp [ht]))
      generalize hP : (ls.map fun s => s.gain * s.shape f).prod = P at h4
      have h5 : adc.gain ≠ 0 := left_ne_zero_of_mul h3
      have h6 : adc.shape f ≠ 0 := right_ne_zero_of_mul h3
      have h7 : s.gain ≠ 0 := left_ne_zero_of_mul h1
      have h8 : s.shape f ≠ 0 := right_ne_zero_of_mul h1
      have h9 : b.gain ≠ 0 := left_ne_zero_of_mul h2
      have h10 : b.shape f ≠ 0 := right_ne_zero_of_mul h2
      unfold removeResp countsOf
      rw [Resp.at_cons]
      simp only [halfGain, List.map_cons, List.prod_cons, hP]
      field_simp

/-! ## The files of the package -/

/-- The gains in the files `RESP.XX.IS025..BDF.GEMV1.26.0_0022`, `RESP.XX.GM002..HHZ.GEMINFRAV1.0.100` and
`RESP.XX.GM001..HHZ.GEMINFRAV1.1.100` of gemlog/data/response; flat stages. -/
def demoSensors (name : List Nat) : Except Exc Resp :=
  if name = sensorName then .ok ⟨[⟨2231378 / 1000000000, fun _ => 1, bytes "PA"⟩, ⟨1, fun _ => 1, bytes "V"⟩], 0, []⟩ else .error .fileNotFound

def demoLoggers (name : List Nat) : Except Exc Resp :=
  if name = loggerName then .ok ⟨[1, 1, 128000, 1].map fun g => ⟨g, fun _ => 1, bytes "V"⟩, 128000, bytes "M/S"⟩
  else if name = bytes "RESP.XX.GM001..HHZ.GEMINFRAV1.1.100" then .ok ⟨[1, 1, 64000, 1].map fun g => ⟨g, fun _ => 1, bytes "V"⟩, 64000, bytes "M/S"⟩
  else .error .fileNotFound

/-- The response at any frequency, in counts per pascal: 285.6 for both gains, but 142.8 if the file of the low gain is named. -/
example : ((getGemResponse 0 demoSensors demoLoggers (bytes "high") [] []).toOption.map fun r => r.at 1) = some (2231378 * 128 / 1000000) ∧
    ((getGemResponse 0 demoSensors demoLoggers (bytes "low") [] []).toOption.map fun r => r.at 1) = some (2231378 * 128 / 1000000) ∧
    ((getGemResponse 0 demoSensors demoLoggers (bytes "low") [] (bytes "RESP.XX.GM001..HHZ.GEMINFRAV1.1.100")).toOption.map fun r => r.at 1)
      = some (2231378 * 64 / 1000000) := by
  decide +kernel

end Gemlog
