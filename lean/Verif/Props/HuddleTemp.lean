import Verif.Props.HuddleGroup
import Mathlib.Tactic.Positivity

/-!
# C79: temperatures of the loggers of a huddle test are compared every minute
-/

namespace Gemlog

/-! ## Specification -/

/-- A logger with a row about every `d` seconds (1 in newer loggers, 10 in older ones): every row has a time, consecutive rows are at least `d`
seconds apart, and the rows span less than `d + 1` seconds for each step. -/
def EverySeconds (d : Nat) (rows : List HuddleRow) : Prop :=
  ∃ v : List Rat, rows.map HuddleRow.t = v.map some ∧ 1 < v.length ∧
    (∀ (i : Nat) (a b : Rat), v[i]? = some a → v[i + 1]? = some b → a + d ≤ b) ∧
    ∀ a b : Rat, v.head? = some a → v.getLast? = some b → b - a < (d + 1) * (v.length - 1)

/-- `b` is the number of the row nearest to a time (the first one if there are several). -/
def NearestRow (rows : List HuddleRow) (time : Rat) (b : Nat) : Prop :=
  ∃ (r : HuddleRow) (x : Rat), rows[b]? = some r ∧ r.t = some x ∧
    ∀ (j : Nat) (q : HuddleRow) (y : Rat), rows[j]? = some q → q.t = some y →
      |time - x| ≤ |time - y| ∧ (j < b → |time - x| < |time - y|)

/-- The temperature of a logger in minute `c`, counted from its own first row, if it is before row `stop`. It has `w` rows a minute. -/
def minuteTemp (w stop : Nat) (rows : List HuddleRow) (c : Nat) : Option Rat :=
  if w * c < stop then rows[w * c]?.bind HuddleRow.temp else none

/-- A temperature is more than 1.5 degrees away from `m`. -/
def FarFrom (m : Rat) (o : Option Rat) : Bool := o.any fun x => decide (3 / 2 < |x - m|)

/-! ## Intervals -/

theorem diffCol_sum (v : List Rat) (a b : Rat) (ha : v.head? = some a) (hb : v.getLast? = some b) :
    ((diffCol (v.map some)).filterMap id).sum = b - a ∧ ((diffCol (v.map some)).filterMap id).length = v.length - 1 := by
  induction v generalizing a with
  | nil => simp at ha
  | cons x v ih =>
    simp only [List.head?_cons, Option.some.injEq] at ha; subst ha
    cases v with
    | nil => simp only [List.getLast?_singleton, Option.some.injEq] at hb; subst hb; simp [diffCol]
    | cons y v =>
      rw [List.getLast?_cons_cons] at hb
      obtain ⟨h1, h2⟩ := ih y rfl hb
      have e : (diffCol ((x :: y :: v).map some)).filterMap id = (y - x) :: (diffCol ((y :: v).map some)).filterMap id := rfl
      rw [e, List.sum_cons, h1, List.length_cons, h2]
      simp

theorem meanInterval_full {rows : List HuddleRow} {v : List Rat} (hv : rows.map HuddleRow.t = v.map some) (hl : 1 < v.length)
    {a b : Rat} (ha : v.head? = some a) (hb : v.getLast? = some b) :
    meanInterval rows = some ((b - a) / (v.length - 1)) := by
  obtain ⟨h1, h2⟩ := diffCol_sum v a b ha hb
  unfold meanInterval
  rw [hv]
  simp only
  rw [if_neg (by intro h0; rw [h0] at h2; simp at h2; omega), h1, h2]
  congr 2
  rw [Nat.cast_sub (by omega)]; simp

/-- Rows at least `d` seconds apart are `d` times as many seconds apart as there are rows between them. -/
theorem steps_far {d : Nat} {v : List Rat} (h : ∀ (i : Nat) (a b : Rat), v[i]? = some a → v[i + 1]? = some b → a + d ≤ b)
    (i k : Nat) (a b : Rat) (ha : v[i]? = some a) (hb : v[i + k]? = some b) : a + d * k ≤ b := by
  induction k generalizing b with
  | zero => rw [Nat.add_zero, ha] at hb; cases hb; simp
  | succ k ih =>
    have hlt : i + k < v.length := by
      have := (List.getElem?_eq_some_iff.mp hb).1; omega
    have h1 := ih v[i + k] (List.getElem?_eq_getElem hlt)
    have h2 := h (i + k) v[i + k] b (List.getElem?_eq_getElem hlt) hb
    push_cast; linarith

theorem EverySeconds.full {d : Nat} {rows : List HuddleRow} (h : EverySeconds d rows) : FullTimes rows := by
  obtain ⟨v, hv, hl, -⟩ := h
  have hlen : rows.length = v.length := by simpa using congrArg List.length hv
  refine ⟨by rintro rfl; simp at hlen; omega, ?_⟩
  intro r hr
  have : r.t ∈ v.map some := by rw [← hv]; exact List.mem_map_of_mem hr
  obtain ⟨x, -, hx⟩ := List.mem_map.mp this
  rw [← hx]; simp

theorem EverySeconds.mean {d : Nat} {rows : List HuddleRow} (h : EverySeconds d rows) :
    ∃ k : Rat, meanInterval rows = some k ∧ (d : Rat) ≤ k ∧ k < d + 1 := by
  obtain ⟨v, hv, hl, hstep, hspan⟩ := h
  have h0 : v[0]? = some v[0] := List.getElem?_eq_getElem (by omega)
  have hb : v.getLast? = some v[v.length - 1] := by
    rw [List.getLast?_eq_getElem?]; exact List.getElem?_eq_getElem (by omega)
  have ha : v.head? = some v[0] := by rw [List.head?_eq_getElem?]; exact h0
  have hpos : (0 : Rat) < (v.length : Rat) - 1 := by
    have : (1 : Rat) < v.length := by exact_mod_cast hl
    linarith
  refine ⟨_, meanInterval_full hv hl ha hb, ?_, ?_⟩
  · rw [le_div_iff₀ hpos]
    have := steps_far hstep 0 (v.length - 1) _ v[v.length - 1] h0 (by rw [Nat.zero_add]; exact List.getElem?_eq_getElem (by omega))
    rw [Nat.cast_sub (by omega)] at this
    push_cast at this; linarith
  · rw [div_lt_iff₀ hpos]
    exact hspan _ _ ha hb

theorem pyTrunc_nat {d : Nat} {k : Rat} (h1 : (d : Rat) ≤ k) (h2 : k < d + 1) : pyTrunc k = d := by
  unfold pyTrunc
  have hd : (0 : Rat) ≤ d := by positivity
  rw [if_pos (by linarith), Int.floor_eq_iff]
  constructor <;> push_cast <;> linarith

theorem perMinute_nat {d w : Nat} (hdw : d * w = 60) {k : Rat} (h1 : (d : Rat) ≤ k) (h2 : k < d + 1) : perMinute (some k) = .ok (w : Rat) := by
  have hd : d ≠ 0 := by rintro rfl; simp at hdw
  simp only [perMinute]
  rw [pyTrunc_nat h1 h2, if_neg (by exact_mod_cast hd)]
  congr 1
  have hdR : ((d : Int) : Rat) ≠ 0 := by exact_mod_cast hd
  rw [div_eq_iff hdR]
  have : ((d * w : Nat) : Rat) = 60 := by rw [hdw]; norm_num
  push_cast at this ⊢
  linarith

theorem width_nat {d w : Nat} (hdw : d * w = 60) {loggers : List (List Nat × List HuddleRow)} (hne : loggers ≠ [])
    (h : ∀ p ∈ loggers, EverySeconds d p.2) : perMinute (pyMinCol (loggers.map fun p => meanInterval p.2)) = .ok (w : Rat) := by
  have hf : ∀ p ∈ loggers, meanInterval p.2 ≠ none := by
    intro p hp; obtain ⟨k, hk, -⟩ := (h p hp).mean; rw [hk]; simp
  have hmap := filterMap_full hf
  rw [← hmap]
  obtain ⟨m, hm, hmem, -⟩ := pyMinCol_some ((loggers.map fun p => meanInterval p.2).filterMap id) (by
    intro h0; rw [h0] at hmap
    exact hne (by simpa using hmap.symm))
  rw [hm]
  obtain ⟨o, ho, hom⟩ := List.mem_filterMap.mp hmem
  obtain ⟨p, hp, rfl⟩ := List.mem_map.mp ho
  obtain ⟨k, hk, h1, h2⟩ := (h p hp).mean
  simp only [id] at hom
  rw [hk] at hom; cases hom
  exact perMinute_nat hdw h1 h2

/-- The step of the table is that of the logger with most rows a minute. -/
theorem width_mixed (d w : List HuddleRow → Nat) {w0 : Nat} {loggers : List (List Nat × List HuddleRow)}
    (hdw : ∀ p ∈ loggers, d p.2 * w p.2 = 60) (h : ∀ p ∈ loggers, EverySeconds (d p.2) p.2)
    (hmax : ∀ p ∈ loggers, w p.2 ≤ w0) (hex : ∃ p ∈ loggers, w p.2 = w0) :
    perMinute (pyMinCol (loggers.map fun p => meanInterval p.2)) = .ok (w0 : Rat) := by
  obtain ⟨p0, hp0, rfl⟩ := hex
  have hf : ∀ p ∈ loggers, meanInterval p.2 ≠ none := by
    intro p hp; obtain ⟨k, hk, -⟩ := (h p hp).mean; rw [hk]; simp
  have hmap := filterMap_full hf
  rw [← hmap]
  obtain ⟨m, hm, hmem, hle⟩ := pyMinCol_some ((loggers.map fun p => meanInterval p.2).filterMap id) (by
    intro h0; rw [h0] at hmap
    have : loggers = [] := by simpa using hmap.symm
    rw [this] at hp0; cases hp0)
  rw [hm]
  obtain ⟨o, ho, hom⟩ := List.mem_filterMap.mp hmem
  obtain ⟨p, hp, rfl⟩ := List.mem_map.mp ho
  obtain ⟨k, hk, h1, h2⟩ := (h p hp).mean
  simp only [id] at hom
  rw [hk] at hom; cases hom
  obtain ⟨k0, hk0, h3, h4⟩ := (h p0 hp0).mean
  have hk0' := hle _ (List.mem_filterMap.mpr ⟨some k0, List.mem_map.mpr ⟨p0, hp0, hk0⟩, rfl⟩)
  -- the smallest mean interval is that of the logger with most rows
  have hd0 : d p0.2 ≤ d p.2 := by
    have e1 := hdw p hp
    have e2 := hdw p0 hp0
    have e3 := hmax p hp
    have hpos : 0 < w p0.2 := Nat.pos_of_ne_zero (by intro h0; rw [h0] at e2; simp at e2)
    refine Nat.le_of_mul_le_mul_right ?_ hpos
    rw [e2, ← e1]
    exact Nat.mul_le_mul_left _ e3
  have hd0R : (d p0.2 : Rat) ≤ d p.2 := by exact_mod_cast hd0
  exact perMinute_nat (hdw p0 hp0) (by linarith) (by linarith)

/-! ## The nearest row -/

theorem npArgmin_some (w : List Rat) (hw : w ≠ []) :
    ∃ x, w[npArgmin (w.map some)]? = some x ∧ (∀ (j : Nat) (y : Rat), w[j]? = some y → x ≤ y ∧ (j < npArgmin (w.map some) → x < y)) := by
  obtain ⟨m, hm, hmem, hle⟩ := pyMinCol_some w hw
  have hany : ((w.map some).any fun x => decide (x = none)) = false := by
    rw [List.any_eq_false]; intro x hx
    obtain ⟨y, -, rfl⟩ := List.mem_map.mp hx; simp
  have hex : ∃ x ∈ w.map some, decide (x = pyMinCol (w.map some)) = true := by
    rw [hm]; exact ⟨some m, List.mem_map_of_mem hmem, by simp⟩
  unfold npArgmin
  rw [hany]
  simp only [Bool.false_eq_true, if_false]
  have hlt : (w.map some).findIdx (fun x => decide (x = pyMinCol (w.map some))) < (w.map some).length := List.findIdx_lt_length.mpr hex
  have hat := List.findIdx_getElem (w := hlt)
  have hbefore : ∀ j, j < (w.map some).findIdx (fun x => decide (x = pyMinCol (w.map some))) →
      ∀ y, w[j]? = some y → y ≠ m := by
    intro j hj y hy hym
    have := List.not_of_lt_findIdx hj
    have hjl : j < (w.map some).length := by omega
    simp only [List.getElem_map, decide_eq_false_iff_not] at this
    rw [List.length_map] at hjl
    rw [List.getElem?_eq_getElem hjl] at hy
    cases hy
    exact this ((congrArg some hym).trans hm.symm)
  generalize (w.map some).findIdx (fun x => decide (x = pyMinCol (w.map some))) = i at hlt hat hbefore
  rw [hm] at hat
  simp only [List.getElem_map, decide_eq_true_eq, Option.some.injEq] at hat
  rw [List.length_map] at hlt
  refine ⟨m, by rw [List.getElem?_eq_getElem hlt, hat], ?_⟩
  intro j y hy
  have hy' := hle y (List.mem_of_getElem? hy)
  exact ⟨hy', fun hj => lt_of_le_of_ne hy' (Ne.symm (hbefore j hj y hy))⟩

theorem nearestRow_spec {rows : List HuddleRow} {v : List Rat} (hv : rows.map HuddleRow.t = v.map some) (hne : v ≠ []) (time : Rat) :
    ∃ x, v[nearestRow rows time]? = some x ∧
      ∀ (j : Nat) (y : Rat), v[j]? = some y → |time - x| ≤ |time - y| ∧ (j < nearestRow rows time → |time - x| < |time - y|) := by
  have e : (rows.map fun r => r.t.map fun t => |time - t|) = (v.map fun t => |time - t|).map some := by
    have := congrArg (List.map (Option.map fun t => |time - t|)) hv
    rw [List.map_map, List.map_map] at this
    rw [List.map_map]
    exact this
  unfold nearestRow
  rw [e]
  obtain ⟨d, hd, hall⟩ := npArgmin_some (v.map fun t => |time - t|) (by simpa using hne)
  rw [List.getElem?_map, Option.map_eq_some_iff] at hd
  obtain ⟨x, hx, rfl⟩ := hd
  refine ⟨x, hx, fun j y hy => hall j _ ?_⟩
  rw [List.getElem?_map, hy]; rfl

theorem getElem?_time {rows : List HuddleRow} {v : List Rat} (hv : rows.map HuddleRow.t = v.map some) (j : Nat) (y : Rat) :
    v[j]? = some y ↔ ∃ q, rows[j]? = some q ∧ q.t = some y := by
  have := congrArg (fun l : List (Option Rat) => l[j]?) hv
  simp only [List.getElem?_map] at this
  constructor
  · intro hy
    rw [hy] at this
    obtain ⟨q, hq, hqt⟩ := Option.map_eq_some_iff.mp this
    exact ⟨q, hq, hqt⟩
  · rintro ⟨q, hq, hqt⟩
    rw [hq] at this
    simp only [Option.map_some, hqt] at this
    obtain ⟨z, hz, hzy⟩ := Option.map_eq_some_iff.mp this.symm
    cases hzy; exact hz

theorem nearestRow_nearest {rows : List HuddleRow} {v : List Rat} (hv : rows.map HuddleRow.t = v.map some) (hne : v ≠ []) (time : Rat) :
    NearestRow rows time (nearestRow rows time) := by
  obtain ⟨x, hx, hall⟩ := nearestRow_spec hv hne time
  obtain ⟨r, hr, hrt⟩ := (getElem?_time hv _ _).mp hx
  exact ⟨r, x, hr, hrt, fun j q y hq hy => hall j y ((getElem?_time hv _ _).mpr ⟨q, hq, hy⟩)⟩

/-- Before its first row, a logger is nearest to the first row. -/
theorem nearestRow_zero {d : Nat} (hd : 1 ≤ d) {rows : List HuddleRow} (h : EverySeconds d rows) (time : Rat)
    (hle : ∀ y, HasReading rows HuddleRow.t y → time ≤ y) : nearestRow rows time = 0 := by
  obtain ⟨v, hv, hl, hstep, -⟩ := h
  obtain ⟨x, hx, hall⟩ := nearestRow_spec hv (by rintro rfl; simp at hl) time
  by_contra hpos
  have h0 : v[0]? = some v[0] := List.getElem?_eq_getElem (by omega)
  have hlt := (hall 0 v[0] h0).2 (by omega)
  have read : ∀ (j : Nat) (y : Rat), v[j]? = some y → time ≤ y := by
    intro j y hy
    obtain ⟨q, hq, hqt⟩ := (getElem?_time hv _ _).mp hy
    exact hle y ⟨q, List.mem_of_getElem? hq, hqt⟩
  have h1 := read 0 _ h0
  have h2 := read _ _ hx
  have h3 := steps_far hstep 0 (nearestRow rows time) v[0] x h0 (by rw [Nat.zero_add]; exact hx)
  have h4 : (0 : Rat) ≤ d * (nearestRow rows time : Rat) := by positivity
  rw [abs_of_nonpos (by linarith), abs_of_nonpos (by linarith)] at hlt
  linarith

/-- If minute `c` of a logger, with `w` rows a minute, is before the row nearest to a time, then that time is more than `c` minutes after the start. -/
theorem nearestRow_minutes {d w : Nat} (hdw : d * w = 60) {rows : List HuddleRow} (h : EverySeconds d rows) (start D : Rat)
    (hle : ∀ y, HasReading rows HuddleRow.t y → start ≤ y) (c : Nat) (hc : w * c < nearestRow rows (start + D)) : 60 * (c : Rat) < D := by
  obtain ⟨v, hv, hl, hstep, -⟩ := h
  obtain ⟨x, hx, hall⟩ := nearestRow_spec hv (by rintro rfl; simp at hl) (start + D)
  have hlen := (List.getElem?_eq_some_iff.mp hx).1
  generalize nearestRow rows (start + D) = b at hx hall hlen hc
  have h0 : v[0]? = some v[0] := List.getElem?_eq_getElem (by omega)
  have hb1 : v[b - 1]? = some v[b - 1] := List.getElem?_eq_getElem (by omega)
  have hs : start ≤ v[0] := by
    obtain ⟨q, hq, hqt⟩ := (getElem?_time hv _ _).mp h0
    exact hle _ ⟨q, List.mem_of_getElem? hq, hqt⟩
  have hlt := (hall (b - 1) _ hb1).2 (by omega)
  have h1 := steps_far hstep 0 (b - 1) _ _ h0 (by rw [Nat.zero_add]; exact hb1)
  have h2 := steps_far hstep (b - 1) 1 _ x hb1 (by rw [show b - 1 + 1 = b by omega]; exact hx)
  have hd : (1 : Rat) ≤ d := by
    have : 1 ≤ d := Nat.pos_of_ne_zero (by rintro rfl; simp at hdw)
    exact_mod_cast this
  have h4 : (60 : Rat) * c ≤ d * ((b - 1 : Nat) : Rat) := by
    have : 60 * c ≤ d * (b - 1) := by
      rw [← hdw, mul_assoc]
      exact Nat.mul_le_mul_left _ (by omega)
    exact_mod_cast this
  push_cast at h2
  by_contra hge
  rw [abs_of_nonpos (by linarith), abs_of_nonpos (by linarith)] at hlt
  linarith

/-! ## The table of temperatures -/

theorem mapM_except_ok {α β ε : Type} (f : α → Except ε β) (g : α → β) (l : List α) (h : ∀ a ∈ l, f a = .ok (g a)) :
    l.mapM f = .ok (l.map g) := by
  induction l with
  | nil => rfl
  | cons a l ih =>
    rw [List.mapM_cons, h a (by simp), ih fun b hb => h b (by simp [hb])]
    rfl

theorem ceil_minutes {w : Nat} (hw : 1 ≤ w) (b : Nat) (c : Nat) : c < ⌈((b : Rat) - ((0 : Nat) : Rat)) / w⌉.toNat ↔ w * c < b := by
  have hwR : (0 : Rat) < w := by exact_mod_cast hw
  have hn : (0 : Int) ≤ ⌈((b : Rat) - ((0 : Nat) : Rat)) / w⌉ := by
    apply Int.ceil_nonneg; push_cast; rw [sub_zero]; positivity
  rw [← Int.ofNat_lt, Int.toNat_of_nonneg hn, Int.lt_ceil]
  push_cast
  rw [sub_zero, lt_div_iff₀ hwR, mul_comm w c]
  exact_mod_cast Iff.rfl

theorem tempRow_ok {d w : Nat} (hdw : d * w = 60) {rows : List HuddleRow} (h : EverySeconds d rows) (S : Rat) (w0 columns : Nat) (hw0 : w0 ≤ 60)
    (hle : ∀ y, HasReading rows HuddleRow.t y → S ≤ y) :
    ∃ cells, tempRow rows S (S + (w0 * columns : Nat)) columns w = .ok cells ∧
      ∀ c, cellAt cells c = minuteTemp w (nearestRow rows (S + (w0 * columns : Nat))) rows c := by
  have hd : 1 ≤ d := Nat.pos_of_ne_zero (by rintro rfl; simp at hdw)
  have hw : 1 ≤ w := Nat.pos_of_ne_zero (by rintro rfl; simp at hdw)
  have ha := nearestRow_zero hd h S hle
  have hb := nearestRow_minutes hdw h S (w0 * columns : Nat) hle
  have hblt : nearestRow rows (S + (w0 * columns : Nat)) < rows.length := by
    obtain ⟨v, hv, hl, -⟩ := h
    obtain ⟨x, hx, -⟩ := nearestRow_spec hv (by rintro rfl; simp at hl) (S + (w0 * columns : Nat))
    have := (List.getElem?_eq_some_iff.mp hx).1
    have hlen : rows.length = v.length := by simpa using congrArg List.length hv
    omega
  refine ⟨(List.range ⌈((nearestRow rows (S + (w0 * columns : Nat)) : Rat) - ((0 : Nat) : Rat)) / w⌉.toNat).map
    (fun i => rows[w * i]?.bind HuddleRow.temp), ?_, ?_⟩
  · unfold tempRow
    rw [ha]
    simp only
    apply mapM_except_ok
    intro i hi
    rw [List.mem_range, ceil_minutes hw] at hi
    have e : (((0 : Nat) : Rat) + (i : Rat) * w) = ((w * i : Nat) : Rat) := by push_cast; ring
    rw [e]
    unfold tempCell
    have hd : (((w * i : Nat) : Rat)).den = 1 := Rat.den_natCast _
    have hnum : (((w * i : Nat) : Rat)).num.toNat = w * i := by rw [Rat.num_natCast]; rfl
    rw [if_pos hd, hnum, List.getElem?_eq_getElem (by omega)]
    simp only
    have hi' : 60 * i < w0 * columns := by exact_mod_cast hb i hi
    rw [if_pos (lt_of_mul_lt_mul_left (lt_of_lt_of_le hi' (Nat.mul_le_mul_right _ hw0)) (Nat.zero_le 60))]
    rfl
  · intro c
    unfold cellAt minuteTemp
    rw [List.getElem?_map]
    by_cases hc : w * c < nearestRow rows (S + (w0 * columns : Nat))
    · rw [if_pos hc, List.getElem?_range ((ceil_minutes hw _ _).mpr hc)]; rfl
    · rw [if_neg hc, List.getElem?_eq_none (by rw [List.length_range]; exact not_lt.mp fun hlt => hc ((ceil_minutes hw _ _).mp hlt))]
      rfl

theorem tempTable_ok (d w : List HuddleRow → Nat) (S : Rat) (w0 columns : Nat) (hw0 : w0 ≤ 60) (loggers : List (List Nat × List HuddleRow))
    (hdw : ∀ p ∈ loggers, d p.2 * w p.2 = 60) (h : ∀ p ∈ loggers, EverySeconds (d p.2) p.2)
    (hle : ∀ p ∈ loggers, ∀ y, HasReading p.2 HuddleRow.t y → S ≤ y) :
    ∃ table, tempTable S (S + (w0 * columns : Nat)) columns loggers = .ok table ∧
      (table.map fun q => q.2.2) = loggers.map (fun p => (w p.2 : Rat)) ∧
      ∀ c, (table.map fun q => (q.1, cellAt q.2.1 c)) =
        loggers.map fun p => (p.1, minuteTemp (w p.2) (nearestRow p.2 (S + (w0 * columns : Nat))) p.2 c) := by
  induction loggers with
  | nil => exact ⟨[], rfl, by simp, by simp⟩
  | cons p rest ih =>
    obtain ⟨sn, rows⟩ := p
    obtain ⟨table, ht, h60, hcells⟩ := ih (fun p hp => hdw p (by simp [hp])) (fun p hp => h p (by simp [hp])) (fun p hp => hle p (by simp [hp]))
    have hrows := h (sn, rows) (by simp)
    have hdw' : d rows * w rows = 60 := hdw (sn, rows) (by simp)
    obtain ⟨k, hk, hk1, hk2⟩ := hrows.mean
    obtain ⟨cells, hc, hcc⟩ := tempRow_ok hdw' hrows S w0 columns hw0 (hle (sn, rows) (by simp))
    refine ⟨(sn, cells, (w rows : Rat)) :: table, ?_, ?_, ?_⟩
    · rw [tempTable, hk, perMinute_nat hdw' hk1 hk2]
      simp only
      rw [hc]
      simp only
      rw [ht]
    · simp only [List.map_cons, h60]
    · intro c
      simp only [List.map_cons, hcells, hcc]

theorem tempErrors_ok {w w0 : Nat} (hw : 1 ≤ w) (hw0 : w ≤ w0) (table : List (List Nat × List (Option Rat) × Rat)) (S : Rat) (columns : Nat) (cs : List Nat)
    (hcs : ∀ c ∈ cs, c < columns) :
    ∃ l, tempErrors table S (S + (w0 * columns : Nat)) w cs = .ok l ∧
      ∀ m, m ∈ l ↔ ∃ c ∈ cs, offenders table c ≠ [] ∧ m = .temperature (offenders table c) (pyTrunc (S + c * w)) := by
  have hwR : (0 : Rat) < w := by exact_mod_cast hw
  have hceil : ∀ c, c < columns → c < ⌈(S + (w0 * columns : Nat) - S) / w⌉.toNat := by
    intro c hc
    have h1 : (c : Rat) < (S + (w0 * columns : Nat) - S) / w := by
      rw [lt_div_iff₀ hwR]
      have : c * w < w0 * columns := by
        calc c * w < columns * w := Nat.mul_lt_mul_of_pos_right hc hw
          _ ≤ columns * w0 := Nat.mul_le_mul_left _ hw0
          _ = w0 * columns := Nat.mul_comm _ _
      have : (c : Rat) * w < (w0 * columns : Nat) := by exact_mod_cast this
      linarith
    have h2 : (c : Int) < ⌈(S + (w0 * columns : Nat) - S) / w⌉ := by
      rw [Int.lt_ceil]; exact_mod_cast h1
    omega
  induction cs with
  | nil => exact ⟨[], rfl, by simp⟩
  | cons c cs ih =>
    obtain ⟨l, hl, hmem⟩ := ih fun c hc => hcs c (by simp [hc])
    rw [tempErrors, if_pos (hceil c (hcs c (by simp))), hl]
    by_cases ho : offenders table c = []
    · rw [if_pos ho]
      refine ⟨l, rfl, fun m => ?_⟩
      rw [hmem]; simp [ho]
    · rw [if_neg ho]
      refine ⟨_, rfl, fun m => ?_⟩
      rw [List.mem_cons, hmem]
      simp [ho]

theorem minute_floor (w : Nat) (x : Rat) : x - pyMod x w = w * ((⌊x / w⌋ : Int) : Rat) := by
  unfold pyMod; ring

theorem offenders_eq (table : List (List Nat × List (Option Rat) × Rat)) (loggers : List (List Nat × List HuddleRow)) (c : Nat)
    (f : List HuddleRow → Option Rat)
    (h : (table.map fun q => (q.1, cellAt q.2.1 c)) = loggers.map fun p => (p.1, f p.2)) :
    ∃ m : Rat, ((loggers.filterMap fun p => f p.2) ≠ [] → Stats.IsMedian m (loggers.filterMap fun p => f p.2)) ∧
      offenders table c = (loggers.filter fun p => FarFrom (round2 m) (f p.2)).map Prod.fst := by
  have hv : (table.filterMap fun q => cellAt q.2.1 c) = loggers.filterMap fun p => f p.2 := by
    have := congrArg (List.filterMap Prod.snd) h
    simpa [List.filterMap_map, Function.comp_def] using this
  have hfil : ∀ g : Option Rat → Bool, (table.filter fun q => g (cellAt q.2.1 c)).map Prod.fst =
      (loggers.filter fun p => g (f p.2)).map Prod.fst := by
    intro g
    have := congrArg (fun l => (l.filter fun q : List Nat × Option Rat => g q.2).map Prod.fst) h
    simpa [List.filter_map, List.map_map, Function.comp_def] using this
  refine ⟨medianRat (loggers.filterMap fun p => f p.2), fun hne => medianRat_isMedian _ hne, ?_⟩
  unfold offenders columnMedian
  rw [hv]
  by_cases hnil : (loggers.filterMap fun p => f p.2) = []
  · simp only [hnil, if_true]
    have h1 : (table.filter fun p => tempOff (cellAt p.2.1 c) none) = [] := by
      rw [List.filter_eq_nil_iff]; intro q hq; cases cellAt q.2.1 c <;> simp [tempOff]
    have h2 : (loggers.filter fun p => FarFrom (round2 (medianRat [])) (f p.2)) = [] := by
      rw [List.filter_eq_nil_iff]; intro p hp
      have : f p.2 = none := by
        by_contra hne
        obtain ⟨x, hx⟩ := Option.ne_none_iff_exists'.mp hne
        have : x ∈ loggers.filterMap fun p => f p.2 := List.mem_filterMap.mpr ⟨p, hp, hx⟩
        rw [hnil] at this; cases this
      rw [this]; simp [FarFrom]
    rw [h1, h2]; rfl
  · simp only [hnil, if_false]
    rw [← hfil]
    congr 1
    apply List.filter_congr
    intro q hq
    cases cellAt q.2.1 c <;> simp [FarFrom, tempOff]

theorem individualTests_ok (loggers : List (List Nat × List HuddleRow)) (hlab : ∀ p ∈ loggers, labelCheck p.2 = .ok ())
    (acc : Individual) : ∃ ind, individualTests loggers acc = .ok ind := by
  induction loggers generalizing acc with
  | nil => exact ⟨acc, rfl⟩
  | cons p rest ih =>
    obtain ⟨sn, rows⟩ := p
    rw [individualTests, hlab (sn, rows) (by simp)]
    exact ih (fun p hp => hlab p (by simp [hp])) _

/-- **C79, loggers with different intervals.** Loggers with about one row every `d` seconds, where `d` may be different for each logger but divides 60 and there are `w` rows
a minute, which together span at least twelve minutes, are compared without an exception. Messages about temperatures are exactly these: for a minute `c`, the loggers whose
temperature in row `w c` is more than 1.5 degrees from the median of all loggers (to two decimals), if there are any. Each logger takes part up
to the row nearest to ten minutes before the end. The time given counts, for each minute, as many seconds as the last logger has rows a minute. Missing: intervals that do not divide 60 (see
`C79_violated_uneven`), and rows that are closer than the interval. -/
theorem C79_mixed_partial (d w : List HuddleRow → Nat) (w0 : Nat) (loggers : List (List Nat × List HuddleRow)) (only : Bool)
    (hdw : ∀ p ∈ loggers, d p.2 * w p.2 = 60) (hone : ∀ p ∈ loggers, EverySeconds (d p.2) p.2)
    (hmax : ∀ p ∈ loggers, w p.2 ≤ w0) (hex : ∃ p ∈ loggers, w p.2 = w0) (final : List Nat × List HuddleRow) (hfinal : loggers.getLast? = some final)
    (first last : Rat) (hfirst : IsEarliest loggers first) (hlast : IsLatest loggers last)
    (hlong : 720 ≤ last - first) :
    ∃ (out : HuddleOutcome) (stop : List HuddleRow → Nat) (median : Nat → Rat),
      verifyHuddle loggers only = .ok out ∧
      (∀ p ∈ loggers, NearestRow p.2 (w0 * (⌊last / w0⌋ : Int) - 600) (stop p.2)) ∧
      (∀ c, (loggers.filterMap fun p => minuteTemp (w p.2) (stop p.2) p.2 c) ≠ [] →
        Stats.IsMedian (median c) (loggers.filterMap fun p => minuteTemp (w p.2) (stop p.2) p.2 c)) ∧
      ∀ (sns : List (List Nat)) (time : Int), GroupMsg.temperature sns time ∈ out.printed.group.errors ↔
        ∃ c : Nat, sns ≠ [] ∧ time = w0 * ⌊first / w0⌋ + w final.2 * c ∧
          sns = (loggers.filter fun p => FarFrom (round2 (median c)) (minuteTemp (w p.2) (stop p.2) p.2 c)).map Prod.fst := by
  have hne : loggers ≠ [] := by rintro rfl; cases hfinal
  have hfull : ∀ p ∈ loggers, FullTimes p.2 := fun p hp => (hone p hp).full
  have hfin := List.mem_of_getLast? hfinal
  obtain ⟨d0, hdw0⟩ : ∃ d0, d0 * w0 = 60 := by
    obtain ⟨p0, hp0, rfl⟩ := hex
    exact ⟨_, hdw p0 hp0⟩
  have hw : 1 ≤ w0 := Nat.pos_of_ne_zero (by rintro rfl; simp at hdw0)
  have hw60 : w0 ≤ 60 := by rw [← hdw0]; exact Nat.le_mul_of_pos_left _ (Nat.pos_of_ne_zero (by rintro rfl; simp at hdw0))
  have hd : 1 ≤ d0 := Nat.pos_of_ne_zero (by rintro rfl; simp at hdw0)
  have hdR : (1 : Rat) ≤ d0 := by exact_mod_cast hd
  have hwR : (0 : Rat) < w0 := by exact_mod_cast hw
  have hdwR : (d0 : Rat) * w0 = 60 := by exact_mod_cast hdw0
  have hwf : 1 ≤ w final.2 := Nat.pos_of_ne_zero (by intro h0; have := hdw _ hfin; rw [h0] at this; simp at this)
  -- the times
  obtain ⟨x, hx, hxe⟩ := skipMin_full hne hfull
  obtain ⟨y, hy, hye⟩ := skipMax_full hne hfull
  have hxf : x = first := by
    obtain ⟨⟨p, hp, hr⟩, hl⟩ := hxe
    obtain ⟨⟨p', hp', hr'⟩, hl'⟩ := hfirst
    exact le_antisymm (hl _ hp' _ hr') (hl' _ hp _ hr)
  have hyl : y = last := by
    obtain ⟨⟨p, hp, hr⟩, hl⟩ := hye
    obtain ⟨⟨p', hp', hr'⟩, hl'⟩ := hlast
    exact le_antisymm (hl' _ hp _ hr) (hl _ hp' _ hr')
  subst hxf hyl
  -- the columns
  have f1 := Int.floor_le (x / w0)
  have f2 := Int.lt_floor_add_one (y / w0)
  have hfl : ⌊x / w0⌋ + 10 * d0 + 1 ≤ ⌊y / w0⌋ := by
    have : ((⌊x / w0⌋ : Int) : Rat) + 10 * d0 + 1 < (⌊y / w0⌋ : Int) + 1 := by
      have : x / w0 + 12 * d0 ≤ y / w0 := by
        rw [div_add' _ _ _ hwR.ne', div_le_div_iff_of_pos_right hwR]
        linarith
      linarith
    have : ⌊x / w0⌋ + 10 * d0 + 1 < ⌊y / w0⌋ + 1 := by exact_mod_cast this
    omega
  obtain ⟨columns, hcol⟩ := Int.eq_ofNat_of_zero_le (show 0 ≤ ⌊y / w0⌋ - 10 * d0 - ⌊x / w0⌋ by omega)
  have hS : x - pyMod x w0 = w0 * ((⌊x / w0⌋ : Int) : Rat) := minute_floor w0 x
  have hcolR : ((⌊y / w0⌋ : Int) : Rat) - 10 * d0 - (⌊x / w0⌋ : Int) = (columns : Rat) := by exact_mod_cast hcol
  have hE : y - pyMod y w0 - 600 = w0 * ((⌊x / w0⌋ : Int) : Rat) + (w0 * columns : Nat) := by
    rw [minute_floor w0 y]; push_cast; rw [← hcolR]; linarith
  have hE2 : w0 * ((⌊y / w0⌋ : Int) : Rat) - 600 = w0 * ((⌊x / w0⌋ : Int) : Rat) + (w0 * columns : Nat) := by
    push_cast; rw [← hcolR]; linarith
  have hcolumns : (pyTrunc ((w0 * ((⌊x / w0⌋ : Int) : Rat) + (w0 * columns : Nat) - w0 * ((⌊x / w0⌋ : Int) : Rat)) / w0)).toNat = columns := by
    have : (w0 * ((⌊x / w0⌋ : Int) : Rat) + (w0 * columns : Nat) - w0 * ((⌊x / w0⌋ : Int) : Rat)) / w0 = (columns : Rat) := by
      push_cast; field_simp; ring
    rw [this]
    unfold pyTrunc
    rw [if_pos (by positivity)]; simp
  have hle : ∀ p ∈ loggers, ∀ z, HasReading p.2 HuddleRow.t z → w0 * ((⌊x / w0⌋ : Int) : Rat) ≤ z := by
    intro p hp z hz
    have := hxe.2 p hp z hz
    have f3 : (w0 : Rat) * ((⌊x / w0⌋ : Int) : Rat) ≤ x := by
      rw [le_div_iff₀ hwR] at f1
      linarith
    linarith
  obtain ⟨table, ht, h60, hcells⟩ := tempTable_ok d w _ w0 columns hw60 loggers hdw hone hle
  obtain ⟨l, hl, hmem⟩ := tempErrors_ok hwf (hmax _ hfin) table (w0 * ((⌊x / w0⌋ : Int) : Rat)) columns (List.range columns) (by simp)
  have hstep : (table.getLast?.map fun p => p.2.2).getD 1 = w final.2 := by
    have := congrArg List.getLast? h60
    rw [List.getLast?_map, List.getLast?_map, hfinal] at this
    rw [this]; rfl
  have htest : temperatureTest loggers = .ok l := by
    unfold temperatureTest
    rw [width_mixed d w hdw hone hmax hex, hx, hy]
    simp only
    rw [hS, hE, hcolumns, if_neg (by omega), ht]
    simp only
    rw [hstep, hl]
  -- the single tests
  have hind : ∃ ind, individualTests loggers ⟨[], [], [], []⟩ = .ok ind := by
    have hlab : ∀ p ∈ loggers, labelCheck p.2 = .ok () := by
      intro p hp
      obtain ⟨v, hv, hlv, -⟩ := hone p hp
      have hlen : p.2.length = v.length := by simpa using congrArg List.length hv
      unfold labelCheck
      split
      · rfl
      · rw [List.getElem?_eq_getElem (by omega)]
        simp only
        rw [if_neg ((hfull p hp).2 _ (List.getElem_mem _))]
    exact individualTests_ok loggers hlab _
  obtain ⟨ind, hind⟩ := hind
  -- the medians
  have hoff : ∀ c, ∃ m : Rat, ((loggers.filterMap fun p => minuteTemp (w p.2) (nearestRow p.2 (w0 * ((⌊x / w0⌋ : Int) : Rat) + (w0 * columns : Nat))) p.2 c) ≠ [] →
      Stats.IsMedian m (loggers.filterMap fun p => minuteTemp (w p.2) (nearestRow p.2 (w0 * ((⌊x / w0⌋ : Int) : Rat) + (w0 * columns : Nat))) p.2 c)) ∧
      offenders table c = (loggers.filter fun p =>
        FarFrom (round2 m) (minuteTemp (w p.2) (nearestRow p.2 (w0 * ((⌊x / w0⌋ : Int) : Rat) + (w0 * columns : Nat))) p.2 c)).map Prod.fst :=
    fun c => offenders_eq table loggers c
      (fun rows => minuteTemp (w rows) (nearestRow rows (w0 * ((⌊x / w0⌋ : Int) : Rat) + (w0 * columns : Nat))) rows c) (hcells c)
  choose med hmed hoffeq using hoff
  refine ⟨⟨⟨ind, ⟨startStopErrors loggers ++ l, loggers.length == 1 || only, (startStopErrors loggers).isEmpty⟩⟩, none⟩,
    fun rows => nearestRow rows (w0 * ((⌊x / w0⌋ : Int) : Rat) + (w0 * columns : Nat)), med, ?_, ?_, hmed, ?_⟩
  · unfold verifyHuddle groupTests
    rw [if_neg hne, hind, htest]
  · intro p hp
    rw [hE2]
    obtain ⟨v, hv, hlv, -⟩ := hone p hp
    exact nearestRow_nearest hv (by rintro rfl; simp at hlv) _
  · intro sns time
    simp only [List.mem_append]
    constructor
    · rintro (h | h)
      · obtain ⟨_, h | h⟩ := startStop_kind _ _ h <;> cases h
      · obtain ⟨c, -, hc, heq⟩ := (hmem _).mp h
        cases heq
        refine ⟨c, hc, ?_, hoffeq c⟩
        have : w0 * ((⌊x / w0⌋ : Int) : Rat) + (c : Rat) * w final.2 = ((w0 * ⌊x / w0⌋ + w final.2 * c : Int) : Rat) := by push_cast; ring
        rw [this]
        unfold pyTrunc
        split
        · exact Int.floor_intCast _
        · exact Int.ceil_intCast _
    · rintro ⟨c, hsn, rfl, hs⟩
      rw [← hoffeq c] at hs
      refine Or.inr ((hmem _).mpr ⟨c, ?_, hs ▸ hsn, ?_⟩)
      · -- some logger takes part in minute `c`
        rw [hs, hoffeq c] at hsn
        obtain ⟨_, hp⟩ := List.exists_mem_of_ne_nil _ hsn
        obtain ⟨p, hp, -⟩ := List.mem_map.mp hp
        obtain ⟨hp1, hp2⟩ := List.mem_filter.mp hp
        have hb := nearestRow_minutes (hdw p hp1) (hone p hp1) _ (w0 * columns : Nat) (hle p hp1)
        unfold minuteTemp at hp2
        split at hp2
        · rename_i hlt
          rw [List.mem_range]
          have hi' : 60 * c < w0 * columns := by exact_mod_cast hb c hlt
          exact lt_of_mul_lt_mul_left (lt_of_lt_of_le hi' (Nat.mul_le_mul_right _ hw60)) (Nat.zero_le 60)
        · simp [FarFrom] at hp2
      · rw [hs]
        congr 1
        have : w0 * ((⌊x / w0⌋ : Int) : Rat) + (c : Rat) * w final.2 = ((w0 * ⌊x / w0⌋ + w final.2 * c : Int) : Rat) := by push_cast; ring
        rw [this]
        unfold pyTrunc
        split
        · exact (Int.floor_intCast _).symm
        · exact (Int.ceil_intCast _).symm

/-- **C79.** Loggers with about one row every `d` seconds, where `d` divides 60 and there are `w` rows a minute, which together span at least twelve minutes, are
compared without an exception. Messages about temperatures are exactly these: for a minute `c`, the loggers whose temperature in row `w c`
is more than 1.5 degrees from the median of all loggers (to two decimals), if there are any. Each logger takes part up
to the row nearest to ten minutes before the end. Missing: intervals that do not divide 60 (see
`C79_violated_uneven`), and rows that are closer than the interval; for loggers with different intervals, see `C79_mixed_partial`. -/
theorem C79_temperatures_partial (d w : Nat) (hdw : d * w = 60) (loggers : List (List Nat × List HuddleRow)) (only : Bool) (hne : loggers ≠ [])
    (hone : ∀ p ∈ loggers, EverySeconds d p.2) (first last : Rat) (hfirst : IsEarliest loggers first) (hlast : IsLatest loggers last)
    (hlong : 720 ≤ last - first) :
    ∃ (out : HuddleOutcome) (stop : List HuddleRow → Nat) (median : Nat → Rat),
      verifyHuddle loggers only = .ok out ∧
      (∀ p ∈ loggers, NearestRow p.2 (w * (⌊last / w⌋ : Int) - 600) (stop p.2)) ∧
      (∀ c, (loggers.filterMap fun p => minuteTemp w (stop p.2) p.2 c) ≠ [] →
        Stats.IsMedian (median c) (loggers.filterMap fun p => minuteTemp w (stop p.2) p.2 c)) ∧
      ∀ (sns : List (List Nat)) (time : Int), GroupMsg.temperature sns time ∈ out.printed.group.errors ↔
        ∃ c : Nat, sns ≠ [] ∧ time = w * ⌊first / w⌋ + w * c ∧
          sns = (loggers.filter fun p => FarFrom (round2 (median c)) (minuteTemp w (stop p.2) p.2 c)).map Prod.fst := by
  obtain ⟨p, hp⟩ := List.exists_mem_of_ne_nil _ hne
  exact C79_mixed_partial (fun _ => d) (fun _ => w) w loggers only (fun _ _ => hdw) hone (fun _ _ => le_refl _) ⟨p, hp, rfl⟩ (loggers.getLast hne)
    (List.getLast?_eq_some_getLast hne) first last hfirst hlast hlong

/-! ## What the messages say -/

theorem round2_close (x : Rat) : |round2 x - x| ≤ 1 / 200 := by
  have h : |(npRound (x * 100) : Rat) - x * 100| ≤ 1 / 2 := by
    unfold npRound
    have f1 := Int.floor_le (x * 100)
    have f2 := Int.lt_floor_add_one (x * 100)
    simp only
    rw [abs_le]
    split_ifs <;> push_cast <;> constructor <;> linarith
  have e : round2 x - x = ((npRound (x * 100) : Rat) - x * 100) / 100 := by unfold round2; ring
  rw [e, abs_div]
  norm_num at h ⊢
  linarith

theorem median_between {m : Rat} {v : List Rat} (h : Stats.IsMedian m v) : ∃ a ∈ v, ∃ b ∈ v, a ≤ m ∧ m ≤ b := by
  obtain ⟨s, hp, hs, ⟨a, b, rfl, -⟩ | ⟨a, b, x, y, rfl, -, rfl⟩⟩ := h
  · have : m ∈ v := hp.subset (by simp)
    exact ⟨m, this, m, this, le_refl _, le_refl _⟩
  · have hx : x ∈ v := hp.subset (by simp)
    have hy : y ∈ v := hp.subset (by simp)
    have hxy : x ≤ y := by
      rw [List.pairwise_append] at hs
      exact (List.pairwise_cons.mp hs.2.1).1 y (by simp)
    exact ⟨x, hx, y, hy, by linarith, by linarith⟩

theorem farFrom_iff (m : Rat) (o : Option Rat) : FarFrom m o = true ↔ ∃ x, o = some x ∧ 3 / 2 < |x - m| := by
  cases o <;> simp [FarFrom]

theorem minuteTemp_some {w stop : Nat} {rows : List HuddleRow} {c : Nat} {x : Rat} (h : minuteTemp w stop rows c = some x) :
    ∃ r, rows[w * c]? = some r ∧ r.temp = some x := by
  unfold minuteTemp at h
  split at h
  · exact Option.bind_eq_some_iff.mp h
  · cases h

/-- **C79, soundness.** Every logger named in a message about temperatures differs from another logger, in the same row
number, by more than 1.49 degrees. -/
theorem C79_sound (d w : Nat) (hdw : d * w = 60) (loggers : List (List Nat × List HuddleRow)) (only : Bool) (hne : loggers ≠ [])
    (hone : ∀ p ∈ loggers, EverySeconds d p.2) (first last : Rat) (hfirst : IsEarliest loggers first) (hlast : IsLatest loggers last)
    (hlong : 720 ≤ last - first) (out : HuddleOutcome) (hout : verifyHuddle loggers only = .ok out)
    (sns : List (List Nat)) (time : Int) (hmem : GroupMsg.temperature sns time ∈ out.printed.group.errors)
    (sn : List Nat) (hsn : sn ∈ sns) :
    ∃ p ∈ loggers, ∃ q ∈ loggers, p.1 = sn ∧ ∃ (i : Nat) (r s : HuddleRow) (x y : Rat),
      p.2[i]? = some r ∧ q.2[i]? = some s ∧ r.temp = some x ∧ s.temp = some y ∧ 149 / 100 < |x - y| ∧
      time = w * ⌊first / w⌋ + i := by
  obtain ⟨out', stop, med, hv, -, hmed, hiff⟩ := C79_temperatures_partial d w hdw loggers only hne hone first last hfirst hlast hlong
  rw [hout] at hv; cases hv
  obtain ⟨c, -, ht, rfl⟩ := (hiff _ _).mp hmem
  obtain ⟨p, hp, rfl⟩ := List.mem_map.mp hsn
  obtain ⟨hp1, hp2⟩ := List.mem_filter.mp hp
  obtain ⟨x, hx, hfar⟩ := (farFrom_iff _ _).mp hp2
  have hxv : x ∈ loggers.filterMap fun p => minuteTemp w (stop p.2) p.2 c := List.mem_filterMap.mpr ⟨p, hp1, hx⟩
  obtain ⟨a, ha, b, hb, ham, hmb⟩ := median_between (hmed c (List.ne_nil_of_mem hxv))
  have hr := round2_close (med c)
  obtain ⟨r, hr1, hr2⟩ := minuteTemp_some hx
  have pick : ∃ y ∈ loggers.filterMap (fun p => minuteTemp w (stop p.2) p.2 c), 149 / 100 < |x - y| := by
    rw [abs_le] at hr
    rcases lt_abs.mp hfar with h | h
    · exact ⟨a, ha, lt_abs.mpr (Or.inl (by linarith))⟩
    · exact ⟨b, hb, lt_abs.mpr (Or.inr (by linarith))⟩
  obtain ⟨y, hy, hxy⟩ := pick
  obtain ⟨q, hq, hqy⟩ := List.mem_filterMap.mp hy
  obtain ⟨s, hs1, hs2⟩ := minuteTemp_some hqy
  exact ⟨p, hp1, q, hq, rfl, w * c, r, s, x, y, hr1, hs1, hr2, hs2, hxy, by rw [ht]; push_cast; ring⟩

/-- **C79 violated: two loggers.** The code asks for temperatures within 2 degrees of each other; but two loggers pass if
they differ by up to 2.99 degrees all the time. -/
theorem C79_violated_two (d w : Nat) (hdw : d * w = 60) (p q : List Nat × List HuddleRow) (only : Bool)
    (hp : EverySeconds d p.2) (hq : EverySeconds d q.2) (first last : Rat) (hfirst : IsEarliest [p, q] first) (hlast : IsLatest [p, q] last)
    (hlong : 720 ≤ last - first)
    (hclose : ∀ (i : Nat) (r s : HuddleRow) (x y : Rat), p.2[i]? = some r → q.2[i]? = some s → r.temp = some x → s.temp = some y →
      |x - y| ≤ 299 / 100) :
    ∃ out, verifyHuddle [p, q] only = .ok out ∧ ∀ sns time, GroupMsg.temperature sns time ∉ out.printed.group.errors := by
  have hone : ∀ p' ∈ [p, q], EverySeconds d p'.2 := by simpa using ⟨hp, hq⟩
  obtain ⟨out, stop, med, hv, -, hmed, hiff⟩ := C79_temperatures_partial d w hdw [p, q] only (by simp) hone first last hfirst hlast hlong
  refine ⟨out, hv, fun sns time hmem => ?_⟩
  obtain ⟨c, hnil, -, hs⟩ := (hiff _ _).mp hmem
  rw [hs] at hnil
  obtain ⟨_, h0⟩ := List.exists_mem_of_ne_nil _ hnil
  obtain ⟨z, hz, -⟩ := List.mem_map.mp h0
  obtain ⟨hz1, hz2⟩ := List.mem_filter.mp hz
  obtain ⟨x, hx, hfar⟩ := (farFrom_iff _ _).mp hz2
  have hxv : x ∈ [p, q].filterMap fun p => minuteTemp w (stop p.2) p.2 c := List.mem_filterMap.mpr ⟨z, hz1, hx⟩
  have hM := hmed c (List.ne_nil_of_mem hxv)
  have hr := round2_close (med c)
  rw [abs_le] at hr
  -- the median of one or two temperatures
  have single : ∀ {m a : Rat}, Stats.IsMedian m [a] → m = a := by
    rintro m a ⟨s, hperm, -, ⟨u, w, rfl, -⟩ | ⟨u, w, x, y, rfl, -, rfl⟩⟩
    · have : m ∈ [a] := hperm.subset (by simp)
      simpa using this
    · have := hperm.length_eq; simp at this; omega
  have double : ∀ {m a b : Rat}, Stats.IsMedian m [a, b] → m = (a + b) / 2 := by
    rintro m a b ⟨s, hperm, -, ⟨u, w, rfl, hl⟩ | ⟨u, w, x, y, rfl, hl, rfl⟩⟩
    · have := hperm.length_eq; simp at this; omega
    · have hlen := hperm.length_eq
      simp at hlen
      have hu : u = [] := List.length_eq_zero_iff.mp (by omega)
      have hw : w = [] := List.length_eq_zero_iff.mp (by omega)
      subst hu hw
      have := hperm.sum_eq
      simp at this
      rw [this]
  cases h1 : minuteTemp w (stop p.2) p.2 c with
  | none =>
    cases h2 : minuteTemp w (stop q.2) q.2 c with
    | none => simp [h1, h2] at hxv
    | some b =>
      simp only [List.filterMap_cons, h1, h2, List.filterMap_nil, List.mem_singleton] at hxv hM
      have := single hM
      subst hxv
      rw [this] at hr hfar
      rcases lt_abs.mp hfar with h | h <;> linarith
  | some a =>
    cases h2 : minuteTemp w (stop q.2) q.2 c with
    | none =>
      simp only [List.filterMap_cons, h1, h2, List.filterMap_nil, List.mem_singleton] at hxv hM
      have := single hM
      subst hxv
      rw [this] at hr hfar
      rcases lt_abs.mp hfar with h | h <;> linarith
    | some b =>
      simp only [List.filterMap_cons, h1, h2, List.filterMap_nil, List.mem_cons, List.not_mem_nil, or_false] at hxv hM
      have hm := double hM
      obtain ⟨r, hr1, hr2⟩ := minuteTemp_some h1
      obtain ⟨s, hs1, hs2⟩ := minuteTemp_some h2
      have hab := abs_le.mp (hclose _ r s a b hr1 hs1 hr2 hs2)
      rcases hxv with rfl | rfl <;> rcases lt_abs.mp hfar with h | h <;> linarith

/-! ## When the test fails -/

theorem exists_largest {α : Type} (f : α → Nat) (l : List α) (h : l ≠ []) : ∃ a ∈ l, ∀ b ∈ l, f b ≤ f a := by
  induction l with
  | nil => exact absurd rfl h
  | cons x l ih =>
    by_cases hl : l = []
    · subst hl; exact ⟨x, by simp, by simp⟩
    · obtain ⟨a, ha, hle⟩ := ih hl
      rcases Nat.le_total (f a) (f x) with hx | hx
      · refine ⟨x, by simp, fun b hb => ?_⟩
        rcases List.mem_cons.mp hb with rfl | hb
        · exact le_refl _
        · exact (hle b hb).trans hx
      · refine ⟨a, by simp [ha], fun b hb => ?_⟩
        rcases List.mem_cons.mp hb with rfl | hb
        · exact hx
        · exact hle b hb

/-- **C79 violated: fast clocks.** If the rows of one logger are less than a second apart on average (its clock runs slightly
fast, or it has one row more than it should), the test of all loggers ends with a division by zero. -/
theorem C79_violated_interval (loggers : List (List Nat × List HuddleRow)) (only : Bool)
    (hfull : ∀ p ∈ loggers, ∃ (v : List Rat) (a b : Rat), p.2.map HuddleRow.t = v.map some ∧ 1 < v.length ∧ v.head? = some a ∧
      v.getLast? = some b ∧ a ≤ b)
    (p : List Nat × List HuddleRow) (hp : p ∈ loggers) (v : List Rat) (a b : Rat) (hv : p.2.map HuddleRow.t = v.map some)
    (ha : v.head? = some a) (hb : v.getLast? = some b) (hfast : b - a < v.length - 1) :
    verifyHuddle loggers only = .error .zeroDivision := by
  have hne : loggers ≠ [] := List.ne_nil_of_mem hp
  have hmean : ∀ q ∈ loggers, ∃ k, meanInterval q.2 = some k ∧ 0 ≤ k := by
    intro q hq
    obtain ⟨w, a', b', hw, hl, ha', hb', hab⟩ := hfull q hq
    refine ⟨_, meanInterval_full hw hl ha' hb', ?_⟩
    have : (1 : Rat) < w.length := by exact_mod_cast hl
    apply div_nonneg <;> linarith
  have hl : 1 < v.length := by
    obtain ⟨w, a', b', hw, hl, -⟩ := hfull p hp
    have : w.length = v.length := by simpa using congrArg List.length (hw.symm.trans hv)
    omega
  have hpk : meanInterval p.2 = some ((b - a) / (v.length - 1)) := meanInterval_full hv hl ha hb
  have hlt : (b - a) / (v.length - 1) < 1 := by
    have : (1 : Rat) < v.length := by exact_mod_cast hl
    rw [div_lt_one (by linarith)]; exact hfast
  have hwidth : perMinute (pyMinCol (loggers.map fun p => meanInterval p.2)) = .error .zeroDivision := by
    have hf : ∀ p ∈ loggers, meanInterval p.2 ≠ none := by
      intro q hq; obtain ⟨k, hk, -⟩ := hmean q hq; rw [hk]; simp
    have hmap := filterMap_full hf
    rw [← hmap]
    obtain ⟨m, hm, hmem, hle⟩ := pyMinCol_some ((loggers.map fun p => meanInterval p.2).filterMap id) (by
      intro h0; rw [h0] at hmap
      exact hne (by simpa using hmap.symm))
    rw [hm]
    obtain ⟨o, ho, hom⟩ := List.mem_filterMap.mp hmem
    obtain ⟨q, hq, rfl⟩ := List.mem_map.mp ho
    obtain ⟨k, hk, hk0⟩ := hmean q hq
    simp only [id] at hom
    rw [hk] at hom; cases hom
    have h2 := hle _ (List.mem_filterMap.mpr ⟨some _, List.mem_map.mpr ⟨p, hp, hpk⟩, rfl⟩)
    simp only [perMinute]
    have : pyTrunc m = 0 := by
      unfold pyTrunc
      rw [if_pos hk0, Int.floor_eq_iff]
      constructor <;> push_cast <;> linarith
    rw [if_pos this]
  have hlab : ∀ q ∈ loggers, labelCheck q.2 = .ok () := by
    intro q hq
    obtain ⟨w, a', b', hw, hl, -⟩ := hfull q hq
    have hlen : q.2.length = w.length := by simpa using congrArg List.length hw
    unfold labelCheck
    split
    · rfl
    · obtain ⟨r, hr, hrt⟩ := (getElem?_time hw 1 w[1]).mp (List.getElem?_eq_getElem hl)
      rw [hr]
      simp only
      rw [if_neg (by rw [hrt]; simp)]
  obtain ⟨ind, hind⟩ := individualTests_ok loggers hlab ⟨[], [], [], []⟩
  unfold verifyHuddle groupTests temperatureTest
  rw [if_neg hne, hind, hwidth]

/-- **C79 violated: brief tests.** If all loggers together span less than ten minutes, the test ends with an exception, whatever their
rows hold. -/
theorem C79_violated_brief (d w : Nat) (hdw : d * w = 60) (loggers : List (List Nat × List HuddleRow)) (only : Bool) (hne : loggers ≠ [])
    (hone : ∀ p ∈ loggers, EverySeconds d p.2) (first last : Rat) (hfirst : IsEarliest loggers first) (hlast : IsLatest loggers last)
    (hshort : last - first < 600) : ∃ e, verifyHuddle loggers only = .error e := by
  have hfull : ∀ p ∈ loggers, FullTimes p.2 := fun p hp => (hone p hp).full
  obtain ⟨x, hx, hxe⟩ := skipMin_full hne hfull
  obtain ⟨y, hy, hye⟩ := skipMax_full hne hfull
  have hxf : x = first := by
    obtain ⟨⟨p, hp, hr⟩, hl⟩ := hxe
    obtain ⟨⟨p', hp', hr'⟩, hl'⟩ := hfirst
    exact le_antisymm (hl _ hp' _ hr') (hl' _ hp _ hr)
  have hyl : y = last := by
    obtain ⟨⟨p, hp, hr⟩, hl⟩ := hye
    obtain ⟨⟨p', hp', hr'⟩, hl'⟩ := hlast
    exact le_antisymm (hl' _ hp _ hr) (hl _ hp' _ hr')
  subst hxf hyl
  have htest : temperatureTest loggers = .error .valueError := by
    unfold temperatureTest
    rw [width_nat hdw hne hone, hx, hy]
    simp only
    have hwR : (0 : Rat) < w := by
      have : 0 < w := Nat.pos_of_ne_zero (by rintro rfl; simp at hdw)
      exact_mod_cast this
    have m1 := pyMod_nonneg y (r := w) hwR
    have m2 := pyMod_lt x (r := w) hwR
    rw [if_pos]
    have hlt : (y - pyMod y w - 600 - (x - pyMod x w)) / w < 1 := by
      rw [div_lt_one hwR]; linarith
    have : pyTrunc ((y - pyMod y w - 600 - (x - pyMod x w)) / w) ≤ 0 := by
      unfold pyTrunc
      split
      · rw [← Int.lt_add_one_iff, Int.floor_lt]; push_cast; linarith
      · rw [Int.ceil_le]; push_cast; linarith
    omega
  unfold verifyHuddle groupTests
  rw [if_neg hne, htest]
  cases individualTests loggers ⟨[], [], [], []⟩ with
  | error e => exact ⟨e, rfl⟩
  | ok ind => exact ⟨_, rfl⟩

/-- **C79 violated: times.** If the last logger has a row every `d` seconds, two or more, the time in a message is too early, by at least half a minute for each minute since the
start: a logger named in it had the temperature in question in its own minute `c`, but the time given is at least `(60 - w) c` seconds before, where the last logger has `w` rows a minute. -/
theorem C79_violated_times (d w : List HuddleRow → Nat) (loggers : List (List Nat × List HuddleRow)) (only : Bool)
    (hdw : ∀ p ∈ loggers, d p.2 * w p.2 = 60) (hone : ∀ p ∈ loggers, EverySeconds (d p.2) p.2)
    (final : List Nat × List HuddleRow) (hfinal : loggers.getLast? = some final) (hd : 2 ≤ d final.2)
    (first last : Rat) (hfirst : IsEarliest loggers first) (hlast : IsLatest loggers last)
    (hlong : 720 ≤ last - first) (out : HuddleOutcome) (hout : verifyHuddle loggers only = .ok out)
    (sns : List (List Nat)) (time : Int) (hmem : GroupMsg.temperature sns time ∈ out.printed.group.errors)
    (sn : List Nat) (hsn : sn ∈ sns) :
    w final.2 ≤ 30 ∧ ∃ p ∈ loggers, p.1 = sn ∧ ∃ (c : Nat) (r : HuddleRow) (x t : Rat), p.2[w p.2 * c]? = some r ∧ r.temp = some x ∧ r.t = some t ∧
      (time : Rat) + (60 - w final.2) * c ≤ t := by
  refine ⟨by by_contra h; have : 2 * 31 ≤ d final.2 * w final.2 := Nat.mul_le_mul hd (by omega)
             have := hdw _ (List.mem_of_getLast? hfinal); omega, ?_⟩
  obtain ⟨p0, hp0, hmax⟩ := exists_largest (fun p : List Nat × List HuddleRow => w p.2) loggers (by rintro rfl; cases hfinal)
  obtain ⟨out', stop, med, hv, -, hmed, hiff⟩ := C79_mixed_partial d w _ loggers only hdw hone hmax ⟨p0, hp0, rfl⟩ final hfinal first last hfirst hlast hlong
  rw [hout] at hv; cases hv
  obtain ⟨c, -, ht, rfl⟩ := (hiff _ _).mp hmem
  obtain ⟨p, hp, rfl⟩ := List.mem_map.mp hsn
  obtain ⟨hp1, hp2⟩ := List.mem_filter.mp hp
  obtain ⟨x, hx, -⟩ := (farFrom_iff _ _).mp hp2
  obtain ⟨r, hr1, hr2⟩ := minuteTemp_some hx
  obtain ⟨v, hv, hl, hstep, -⟩ := hone p hp1
  have hrt : ∃ t, r.t = some t ∧ v[w p.2 * c]? = some t := by
    have := congrArg (fun l => l[w p.2 * c]?) hv
    simp only [List.getElem?_map, hr1, Option.map_some] at this
    obtain ⟨t, h1, h2⟩ := Option.map_eq_some_iff.mp this.symm
    exact ⟨t, h2.symm, h1⟩
  obtain ⟨t, ht1, ht2⟩ := hrt
  refine ⟨p, hp1, rfl, c, r, x, t, hr1, hr2, ht1, ?_⟩
  have h0 : v[0]? = some v[0] := List.getElem?_eq_getElem (by omega)
  have h1 := steps_far hstep 0 (w p.2 * c) v[0] t h0 (by rw [Nat.zero_add]; exact ht2)
  have h2 : first ≤ v[0] := by
    obtain ⟨q, hq, hqt⟩ := (getElem?_time hv 0 v[0]).mp h0
    exact hfirst.2 p hp1 _ ⟨q, List.mem_of_getElem? hq, hqt⟩
  have hwR : (0 : Rat) < w p0.2 := by
    have : 0 < w p0.2 := Nat.pos_of_ne_zero (by intro h0; have := hdw _ hp0; rw [h0] at this; simp at this)
    exact_mod_cast this
  have h3 : (w p0.2 : Rat) * ((⌊first / w p0.2⌋ : Int) : Rat) ≤ first := by
    have := Int.floor_le (first / w p0.2)
    rw [le_div_iff₀ hwR] at this
    linarith
  have hdwR : (d p.2 : Rat) * w p.2 = 60 := by exact_mod_cast hdw p hp1
  have h4 : (d p.2 : Rat) * ((w p.2 * c : Nat) : Rat) = 60 * c := by
    push_cast
    rw [← mul_assoc, hdwR]
  rw [ht]
  push_cast
  linarith

/-! ## Intervals that do not divide a minute -/

theorem mapM_except_error {α β ε : Type} (f : α → Except ε β) (l : List α) (a : α) (ha : a ∈ l) (e : ε) (h : f a = .error e) :
    ∃ e', l.mapM f = .error e' := by
  induction l with
  | nil => cases ha
  | cons x l ih =>
    rw [List.mapM_cons]
    cases hx : f x with
    | error e' => exact ⟨e', rfl⟩
    | ok y =>
      rcases List.mem_cons.mp ha with rfl | ha
      · rw [h] at hx; cases hx
      · obtain ⟨e', he⟩ := ih ha
        rw [he]; exact ⟨e', rfl⟩

theorem tempTable_error {S E : Rat} {columns : Nat} {p : List Nat × List HuddleRow} {step : Rat} {e : HExc}
    (hstep : perMinute (meanInterval p.2) = .ok step) (hrow : tempRow p.2 S E columns step = .error e)
    (loggers : List (List Nat × List HuddleRow)) (hp : p ∈ loggers) : ∃ e', tempTable S E columns loggers = .error e' := by
  induction loggers with
  | nil => cases hp
  | cons q rest ih =>
    obtain ⟨sn, rows⟩ := q
    rw [tempTable]
    cases h1 : perMinute (meanInterval rows) with
    | error e' => exact ⟨e', rfl⟩
    | ok st =>
      simp only
      cases h2 : tempRow rows S E columns st with
      | error e' => exact ⟨e', rfl⟩
      | ok cells =>
        simp only
        rcases List.mem_cons.mp hp with rfl | hp
        · rw [hstep] at h1; cases h1
          rw [hrow] at h2; cases h2
        · obtain ⟨e', he⟩ := ih hp
          rw [he]; exact ⟨e', rfl⟩

/-- **C79 violated: other intervals.** If one of the loggers has a row about every `d` seconds, where `d` does not divide 60, and it recorded for more than a minute before the last
eleven minutes of the test, the test of all loggers ends with an exception, whatever the rows hold. The other loggers may have any intervals of a second or more. -/
theorem C79_violated_uneven (d : List HuddleRow → Nat) (loggers : List (List Nat × List HuddleRow)) (only : Bool)
    (hd : ∀ p ∈ loggers, 1 ≤ d p.2) (hone : ∀ p ∈ loggers, EverySeconds (d p.2) p.2) (last : Rat) (hlast : IsLatest loggers last)
    (p : List Nat × List HuddleRow) (hp : p ∈ loggers) (hodd : ¬ d p.2 ∣ 60)
    (k : Nat) (r : HuddleRow) (t : Rat) (hr : p.2[k]? = some r) (ht : r.t = some t) (hk : 60 < d p.2 * k) (hlate : t ≤ last - 660) :
    ∃ e, verifyHuddle loggers only = .error e := by
  have hne : loggers ≠ [] := List.ne_nil_of_mem hp
  have hfull : ∀ p ∈ loggers, FullTimes p.2 := fun p hp => (hone p hp).full
  obtain ⟨x, hx, hxe⟩ := skipMin_full hne hfull
  obtain ⟨y, hy, hye⟩ := skipMax_full hne hfull
  have hyl : y = last := by
    obtain ⟨⟨p, hp, hr⟩, hl⟩ := hye
    obtain ⟨⟨p', hp', hr'⟩, hl'⟩ := hlast
    exact le_antisymm (hl' _ hp _ hr) (hl _ hp' _ hr')
  subst hyl
  -- the width of the table
  have hwidth : ∃ wd : Rat, perMinute (pyMinCol (loggers.map fun p => meanInterval p.2)) = .ok wd ∧ 0 < wd ∧ wd ≤ 60 := by
    have hf : ∀ p ∈ loggers, meanInterval p.2 ≠ none := by
      intro p hp; obtain ⟨k, hk, -⟩ := (hone p hp).mean; rw [hk]; simp
    have hmap := filterMap_full hf
    rw [← hmap]
    obtain ⟨m, hm, hmem, -⟩ := pyMinCol_some ((loggers.map fun p => meanInterval p.2).filterMap id) (by
      intro h0; rw [h0] at hmap
      exact hne (by simpa using hmap.symm))
    rw [hm]
    obtain ⟨o, ho, hom⟩ := List.mem_filterMap.mp hmem
    obtain ⟨q, hq, rfl⟩ := List.mem_map.mp ho
    obtain ⟨k, hk, h1, h2⟩ := (hone q hq).mean
    simp only [id] at hom
    rw [hk] at hom; cases hom
    have hdq := hd q hq
    have hdqR : (1 : Rat) ≤ d q.2 := by exact_mod_cast hdq
    simp only [perMinute]
    rw [pyTrunc_nat h1 h2, if_neg (by exact_mod_cast (by omega : d q.2 ≠ 0))]
    refine ⟨_, rfl, ?_, ?_⟩
    · push_cast; positivity
    · push_cast
      rw [div_le_iff₀ (by linarith)]; linarith
  obtain ⟨wd, hwd, hpos, h60⟩ := hwidth
  have m1 := pyMod_nonneg x hpos
  have m2 := pyMod_lt y hpos
  -- the row of the logger
  obtain ⟨kk, hkk, k1, k2⟩ := (hone p hp).mean
  have hdp := hd p hp
  have hdpR : (0 : Rat) < d p.2 := by exact_mod_cast hdp
  have hstep : perMinute (meanInterval p.2) = .ok (60 / (d p.2 : Rat)) := by
    rw [hkk]
    simp only [perMinute]
    rw [pyTrunc_nat k1 k2, if_neg (by exact_mod_cast (by omega : d p.2 ≠ 0))]
    push_cast; rfl
  have ha := nearestRow_zero hdp (hone p hp) (x - pyMod x wd) (by
    intro z hz
    have := hxe.2 p hp z hz
    linarith)
  have hb : k ≤ nearestRow p.2 (y - pyMod y wd - 600) := by
    obtain ⟨v, hv, hl, hst, -⟩ := hone p hp
    obtain ⟨z, hz, hall⟩ := nearestRow_spec hv (by rintro rfl; simp at hl) (y - pyMod y wd - 600)
    have hkt := (getElem?_time hv k t).mpr ⟨r, hr, ht⟩
    by_contra hlt
    have h1 := (hall k t hkt).1
    have h2 := steps_far hst (nearestRow p.2 (y - pyMod y wd - 600)) (k - nearestRow p.2 (y - pyMod y wd - 600)) z t hz
      (by rw [show ∀ b, b < k → b + (k - b) = k by omega]; exact hkt; omega)
    have h3 : (1 : Rat) ≤ ((k - nearestRow p.2 (y - pyMod y wd - 600) : Nat) : Rat) := by
      have : 1 ≤ k - nearestRow p.2 (y - pyMod y wd - 600) := by omega
      exact_mod_cast this
    have h4 : (d p.2 : Rat) ≤ d p.2 * ((k - nearestRow p.2 (y - pyMod y wd - 600) : Nat) : Rat) := by nlinarith
    rw [abs_of_nonneg (by linarith), abs_of_nonneg (by linarith)] at h1
    linarith
  have hkR : (60 : Rat) < d p.2 * k := by exact_mod_cast hk
  have hrow : ∀ columns, ∃ e, tempRow p.2 (x - pyMod x wd) (y - pyMod y wd - 600) columns (60 / (d p.2 : Rat)) = .error e := by
    intro columns
    unfold tempRow
    simp only
    rw [ha]
    refine mapM_except_error _ _ 1 ?_ .keyError ?_
    · rw [List.mem_range]
      have : ((1 : Nat) : Int) < ⌈(((nearestRow p.2 (y - pyMod y wd - 600) : Nat) : Rat) - ((0 : Nat) : Rat)) / (60 / (d p.2 : Rat))⌉ := by
        rw [Int.lt_ceil, lt_div_iff₀ (by positivity)]
        push_cast
        rw [one_mul, sub_zero, div_lt_iff₀ hdpR]
        have : (k : Rat) ≤ (nearestRow p.2 (y - pyMod y wd - 600) : Rat) := by exact_mod_cast hb
        nlinarith
      omega
    · unfold tempCell
      rw [if_neg]
      intro hden
      have e : (((0 : Nat) : Rat) + ((1 : Nat) : Rat) * (60 / (d p.2 : Rat))) = 60 / (d p.2 : Rat) := by push_cast; ring
      rw [e] at hden
      apply hodd
      have h1 := Rat.coe_int_num_of_den_eq_one hden
      rw [eq_div_iff hdpR.ne'] at h1
      have h2 : (60 / (d p.2 : Rat)).num * (d p.2 : Int) = 60 := by exact_mod_cast h1
      have : (d p.2 : Int) ∣ ((60 : Nat) : Int) := ⟨_, by rw [mul_comm]; exact_mod_cast h2.symm⟩
      exact Int.natCast_dvd_natCast.mp this
  have htest : ∃ e, temperatureTest loggers = .error e := by
    unfold temperatureTest
    rw [hwd, hx, hy]
    simp only
    split
    · exact ⟨_, rfl⟩
    · obtain ⟨e, he⟩ := hrow (pyTrunc ((y - pyMod y wd - 600 - (x - pyMod x wd)) / wd)).toNat
      obtain ⟨e', he'⟩ := tempTable_error hstep he loggers hp
      rw [he']; exact ⟨e', rfl⟩
  obtain ⟨e, he⟩ := htest
  unfold verifyHuddle groupTests
  rw [if_neg hne, he]
  cases individualTests loggers ⟨[], [], [], []⟩ with
  | error e => exact ⟨e, rfl⟩
  | ok ind => exact ⟨_, rfl⟩

/-! ## Examples -/

/-- Rows every `step` seconds from `start`, with the temperatures of a curve. -/
def curveRows (start step n : Nat) (curve : Rat → Rat) : List HuddleRow :=
  (List.range n).map fun i : Nat => plainRow (start + i * step) 5 (curve (start + i * step)) (i / 10)

/-- **C79 violated: late starts.** Two loggers in the same place with the same temperature at any time, one of which starts ten minutes
later (which is allowed): the temperatures are said to disagree, since rows are counted from the first row of each logger. -/
theorem C79_violated_shift : ∃ (loggers : List (List Nat × List HuddleRow)) (curve : Rat → Rat) (out : HuddleOutcome),
    (∀ p ∈ loggers, ∀ r ∈ p.2, r.temp = r.t.map curve) ∧ verifyHuddle loggers false = .ok out ∧
    out.printed.group.agree = true ∧ ∃ sns time, GroupMsg.temperature sns time ∈ out.printed.group.errors := by
  have h : ((verifyHuddle [(bytes "061", curveRows 0 10 150 fun t => t / 100), (bytes "065", curveRows 600 10 90 fun t => t / 100)]
      false).toOption.map fun out => (out.printed.group.agree, out.printed.group.errors.head?)) =
      some (true, some (.temperature [bytes "061", bytes "065"] 0)) := by decide +kernel
  refine ⟨[(bytes "061", curveRows 0 10 150 fun t => t / 100), (bytes "065", curveRows 600 10 90 fun t => t / 100)], fun t => t / 100, ?_⟩
  cases hv : verifyHuddle [(bytes "061", curveRows 0 10 150 fun t => t / 100), (bytes "065", curveRows 600 10 90 fun t => t / 100)]
      false with
  | error e => rw [hv] at h; cases h
  | ok out =>
    rw [hv] at h
    simp only [Except.toOption, Option.map_some, Option.some.injEq, Prod.mk.injEq] at h
    refine ⟨out, ?_, rfl, h.1, _, _, List.mem_of_head? h.2⟩
    intro p hp r hr
    simp only [List.mem_cons, List.not_mem_nil, or_false] at hp
    rcases hp with rfl | rfl <;> obtain ⟨i, -, rfl⟩ := List.mem_map.mp hr <;> simp [plainRow]

/-- **C79 violated: times.** For loggers with a row every ten seconds, the time in a message is wrong: here the temperatures disagree only
five minutes after the start, and the message says half a minute. -/
theorem C79_violated_label : ∃ (loggers : List (List Nat × List HuddleRow)) (out : HuddleOutcome),
    (∀ p ∈ loggers, ∀ r ∈ p.2, r.t ≠ some 300 → r.temp = some 20) ∧ verifyHuddle loggers false = .ok out ∧
    ∃ sns, GroupMsg.temperature sns 30 ∈ out.printed.group.errors := by
  have h : ((verifyHuddle [(bytes "061", curveRows 0 10 150 fun _ => 20), (bytes "065", curveRows 0 10 150 fun t => if t = 300 then 30 else 20)]
      false).toOption.map fun out => out.printed.group.errors) =
      some [.temperature [bytes "061", bytes "065"] 30] := by decide +kernel
  refine ⟨[(bytes "061", curveRows 0 10 150 fun _ => 20), (bytes "065", curveRows 0 10 150 fun t => if t = 300 then 30 else 20)], ?_⟩
  cases hv : verifyHuddle [(bytes "061", curveRows 0 10 150 fun _ => 20),
      (bytes "065", curveRows 0 10 150 fun t => if t = 300 then 30 else 20)] false with
  | error e => rw [hv] at h; cases h
  | ok out =>
    rw [hv] at h
    simp only [Except.toOption, Option.map_some, Option.some.injEq] at h
    refine ⟨out, ?_, rfl, [bytes "061", bytes "065"], by rw [h]; simp⟩
    intro p hp r hr hne
    simp only [List.mem_cons, List.not_mem_nil, or_false] at hp
    rcases hp with rfl | rfl
    · obtain ⟨i, -, rfl⟩ := List.mem_map.mp hr
      rfl
    · obtain ⟨i, -, rfl⟩ := List.mem_map.mp hr
      simp only [plainRow, ne_eq, Option.some.injEq] at hne ⊢
      rw [if_neg hne]

/-- Rows every `d` seconds meet the hypothesis of C79. -/
theorem curveRows_every (start d n : Nat) (curve : Rat → Rat) (hn : 1 < n) : EverySeconds d (curveRows start d n curve) := by
  refine ⟨(List.range n).map fun i : Nat => ((start : Rat) + i * d), ?_, by simpa using hn, ?_, ?_⟩
  · unfold curveRows
    rw [List.map_map, List.map_map]; rfl
  · intro i a b ha hb
    rw [List.getElem?_map] at ha hb
    obtain ⟨x, hx, rfl⟩ := Option.map_eq_some_iff.mp ha
    obtain ⟨y, hy, rfl⟩ := Option.map_eq_some_iff.mp hb
    obtain ⟨h1, h2⟩ := List.getElem?_eq_some_iff.mp hx
    obtain ⟨h3, h4⟩ := List.getElem?_eq_some_iff.mp hy
    rw [List.getElem_range] at h2 h4
    subst h2 h4
    push_cast; linarith
  · intro a b ha hb
    rw [List.head?_eq_getElem?, List.getElem?_map] at ha
    rw [List.getLast?_eq_getElem?, List.getElem?_map] at hb
    obtain ⟨x, hx, rfl⟩ := Option.map_eq_some_iff.mp ha
    obtain ⟨y, hy, rfl⟩ := Option.map_eq_some_iff.mp hb
    obtain ⟨h1, h2⟩ := List.getElem?_eq_some_iff.mp hx
    obtain ⟨h3, h4⟩ := List.getElem?_eq_some_iff.mp hy
    rw [List.getElem_range] at h2 h4
    subst h2 h4
    simp only [List.length_map, List.length_range] at h3 ⊢
    rw [Nat.cast_sub (by omega)]
    have : (1 : Rat) < n := by exact_mod_cast hn
    push_cast; linarith

/-- Two loggers with a row every `d` seconds for more than twelve minutes, started ten seconds apart, meet the hypotheses of C79. -/
theorem demo_C79 (d n : Nat) (hd : 1 ≤ d) (hn : 721 ≤ d * n) (hn2 : 2 ≤ n) (loggers : List (List Nat × List HuddleRow)) (v1 v2 : Rat)
    (hl : loggers = [(bytes "061", curveRows 30 d n fun _ => v1), (bytes "065", curveRows (30 + d) d n fun _ => v2)]) :
    (∀ p ∈ loggers, EverySeconds d p.2) ∧ IsEarliest loggers 30 ∧ IsLatest loggers (30 + d * n) ∧ 720 ≤ ((30 : Rat) + d * n) - 30 := by
  have hbound : ∀ (start : Nat) (curve : Rat → Rat) (y : Rat), HasReading (curveRows start d n curve) HuddleRow.t y →
      (start : Rat) ≤ y ∧ y ≤ start + d * (n - 1) := by
    rintro start curve y ⟨r, hr, hy⟩
    obtain ⟨i, hi, rfl⟩ := List.mem_map.mp hr
    rw [List.mem_range] at hi
    simp only [plainRow, Option.some.injEq] at hy
    have h1 : (i : Rat) ≤ n - 1 := by
      have : (i : Rat) + 1 ≤ n := by exact_mod_cast hi
      linarith
    have h0 : (0 : Rat) ≤ i * d := by positivity
    have h2 : (i : Rat) * d ≤ (n - 1) * d := mul_le_mul_of_nonneg_right h1 (by positivity)
    subst hy
    constructor <;> linarith
  have hnR : (721 : Rat) ≤ d * n := by exact_mod_cast hn
  have hdR : (1 : Rat) ≤ d := by exact_mod_cast hd
  subst hl
  refine ⟨?_, ⟨?_, ?_⟩, ⟨?_, ?_⟩, by linarith⟩
  · intro p hp
    simp only [List.mem_cons, List.not_mem_nil, or_false] at hp
    rcases hp with rfl | rfl
    · exact curveRows_every 30 d n (fun _ => v1) (by omega)
    · exact curveRows_every (30 + d) d n (fun _ => v2) (by omega)
  · refine ⟨(bytes "061", curveRows 30 d n fun _ => v1), by simp, ?_⟩
    exact ⟨_, List.mem_map.mpr ⟨0, List.mem_range.mpr (by omega), rfl⟩, by norm_num [plainRow]⟩
  · intro p hp y hy
    simp only [List.mem_cons, List.not_mem_nil, or_false] at hp
    rcases hp with rfl | rfl
    · have := (hbound 30 (fun _ => v1) y hy).1
      push_cast at this; linarith
    · have := (hbound (30 + d) (fun _ => v2) y hy).1
      push_cast at this; linarith
  · refine ⟨(bytes "065", curveRows (30 + d) d n fun _ => v2), by simp, ?_⟩
    refine ⟨_, List.mem_map.mpr ⟨n - 1, List.mem_range.mpr (by omega), rfl⟩, ?_⟩
    simp only [plainRow, Option.some.injEq]
    rw [Nat.cast_sub (by omega)]; push_cast; ring
  · intro p hp y hy
    simp only [List.mem_cons, List.not_mem_nil, or_false] at hp
    rcases hp with rfl | rfl
    · have := (hbound 30 (fun _ => v1) y hy).2
      push_cast at this; linarith
    · have := (hbound (30 + d) (fun _ => v2) y hy).2
      push_cast at this; linarith

example (d w n : Nat) (hdw : d * w = 60) (hn : 721 ≤ d * n) (hn2 : 2 ≤ n) :
    ∃ out, verifyHuddle [(bytes "061", curveRows 30 d n fun _ => 20), (bytes "065", curveRows (30 + d) d n fun _ => 25)] false = .ok out := by
  obtain ⟨h1, h2, h3, h4⟩ := demo_C79 d n (Nat.pos_of_ne_zero (by rintro rfl; simp at hdw)) hn hn2 _ 20 25 rfl
  obtain ⟨out, _, _, h, -⟩ := C79_temperatures_partial d w hdw _ false (by simp) h1 _ _ h2 h3 h4
  exact ⟨out, h⟩

/-- A case of `C79_violated_times`: two loggers ten degrees apart, with a row every ten seconds. -/
example : ∃ (out : HuddleOutcome) (sns : List (List Nat)) (time : Int), GroupMsg.temperature sns time ∈ out.printed.group.errors ∧
    ∀ sn ∈ sns, ∃ p ∈ [(bytes "061", curveRows 30 10 150 fun _ => 20), (bytes "065", curveRows (30 + 10) 10 150 fun _ => 30)], p.1 = sn ∧
      ∃ (c : Nat) (r : HuddleRow) (x t : Rat), p.2[6 * c]? = some r ∧ r.temp = some x ∧ r.t = some t ∧ (time : Rat) + (60 - (6 : Nat)) * c ≤ t := by
  have h : ((verifyHuddle [(bytes "061", curveRows 30 10 150 fun _ => 20), (bytes "065", curveRows (30 + 10) 10 150 fun _ => 30)]
      false).toOption.map fun out => decide (GroupMsg.temperature [bytes "061", bytes "065"] 60 ∈ out.printed.group.errors)) = some true := by decide +kernel
  cases hv : verifyHuddle [(bytes "061", curveRows 30 10 150 fun _ => 20), (bytes "065", curveRows (30 + 10) 10 150 fun _ => 30)] false with
  | error e => rw [hv] at h; cases h
  | ok out =>
    rw [hv] at h
    simp only [Except.toOption, Option.map_some, Option.some.injEq, decide_eq_true_eq] at h
    obtain ⟨h1, h2, h3, h4⟩ := demo_C79 10 150 (by norm_num) (by norm_num) (by norm_num) _ 20 30 rfl
    refine ⟨out, _, _, h, fun sn hsn => ?_⟩
    exact (C79_violated_times (fun _ => 10) (fun _ => 6) _ false (fun _ _ => by norm_num) h1 _ rfl (by norm_num) _ _ h2 h3 h4 out hv _ _ h sn hsn).2

/-- A logger with a row every ten seconds, and one with a row a second: compared without an exception. -/
example : ∃ out, verifyHuddle [(bytes "061", curveRows 0 10 100 fun _ => 20), (bytes "200", curveRows 0 1 800 fun _ => 25)] false = .ok out := by
  have hb : ∀ p ∈ [(bytes "061", curveRows 0 10 100 fun _ => 20), (bytes "200", curveRows 0 1 800 fun _ => 25)],
      p = (bytes "061", curveRows 0 10 100 fun _ => 20) ∨ p = (bytes "200", curveRows 0 1 800 fun _ => 25) := by
    intro p hp; simpa using hp
  have hlen : ∀ (step n : Nat) (curve : Rat → Rat), (curveRows 0 step n curve).length = n := by
    intro step n curve; simp [curveRows]
  have hall : ∀ (step n : Nat) (curve : Rat → Rat) (y : Rat), HasReading (curveRows 0 step n curve) HuddleRow.t y →
      ∃ i : Nat, i < n ∧ y = i * step := by
    rintro step n curve y ⟨r, hr, hy⟩
    obtain ⟨i, hi, rfl⟩ := List.mem_map.mp hr
    refine ⟨i, List.mem_range.mp hi, ?_⟩
    simp only [plainRow, Option.some.injEq] at hy
    rw [← hy]; push_cast; ring
  obtain ⟨out, _, _, h, -⟩ := C79_mixed_partial (fun rows => if rows.length = 100 then 10 else 1) (fun rows => if rows.length = 100 then 6 else 60) 60 _ false
    (fun p hp => by rcases hb p hp with rfl | rfl <;> simp [hlen])
    (fun p hp => by
      rcases hb p hp with rfl | rfl
      · simp only [hlen, if_true]; exact curveRows_every 0 10 100 _ (by norm_num)
      · simp only [hlen]; exact curveRows_every 0 1 800 _ (by norm_num))
    (fun p hp => by rcases hb p hp with rfl | rfl <;> simp [hlen])
    ⟨(bytes "200", curveRows 0 1 800 fun _ => 25), by simp, by simp [hlen]⟩ (bytes "200", curveRows 0 1 800 fun _ => 25) rfl 0 990
    ⟨⟨(bytes "061", curveRows 0 10 100 fun _ => 20), by simp, _, List.mem_map.mpr ⟨0, List.mem_range.mpr (by norm_num), rfl⟩, by norm_num [plainRow]⟩, by
      intro p hp y hy
      rcases hb p hp with rfl | rfl
      · dsimp only at hy
        obtain ⟨i, -, rfl⟩ := hall 10 100 (fun _ => 20) y hy
        positivity
      · dsimp only at hy
        obtain ⟨i, -, rfl⟩ := hall 1 800 (fun _ => 25) y hy
        positivity⟩
    ⟨⟨(bytes "061", curveRows 0 10 100 fun _ => 20), by simp, _, List.mem_map.mpr ⟨99, List.mem_range.mpr (by norm_num), rfl⟩, by norm_num [plainRow]⟩, by
      intro p hp y hy
      rcases hb p hp with rfl | rfl
      · dsimp only at hy
        obtain ⟨i, hi, rfl⟩ := hall 10 100 (fun _ => 20) y hy
        have : (i : Rat) + 1 ≤ 100 := by exact_mod_cast hi
        push_cast; linarith
      · dsimp only at hy
        obtain ⟨i, hi, rfl⟩ := hall 1 800 (fun _ => 25) y hy
        have : (i : Rat) + 1 ≤ 800 := by exact_mod_cast hi
        push_cast; linarith⟩ (by norm_num)
  exact ⟨out, h⟩

/-- A logger with a row every seven seconds for half an hour: the test fails. -/
example : ∃ e, verifyHuddle [(bytes "061", curveRows 0 7 257 fun _ => 20)] false = .error e := by
  refine C79_violated_uneven (fun _ => 7) _ _ (by simp) ?_ 1792 ⟨?_, ?_⟩ _ (List.mem_singleton_self _) (by norm_num) 9 (plainRow ((0 : Nat) + (9 : Nat) * (7 : Nat)) 5 20 (((9 : Nat) : Rat) / 10))
    ((0 : Nat) + (9 : Nat) * (7 : Nat)) ?_ rfl (by norm_num) (by norm_num)
  · intro p hp
    rw [List.mem_singleton] at hp; subst hp
    exact curveRows_every 0 7 257 (fun _ => 20) (by norm_num)
  · exact ⟨_, List.mem_singleton_self _, _, List.mem_map.mpr ⟨256, List.mem_range.mpr (by norm_num), rfl⟩, by norm_num [plainRow]⟩
  · intro p hp y hy
    rw [List.mem_singleton] at hp; subst hp
    obtain ⟨r, hr, hy⟩ := hy
    obtain ⟨i, hi, rfl⟩ := List.mem_map.mp hr
    rw [List.mem_range] at hi
    simp only [plainRow, Option.some.injEq] at hy
    have : (i : Rat) + 1 ≤ 257 := by exact_mod_cast hi
    rw [← hy]; push_cast; linarith
  · simp [curveRows]

/-- A logger with three rows in 1.9 seconds: a division by zero. -/
example : verifyHuddle [(bytes "061", [plainRow 0 5 20 0, plainRow 1 5 20 1, plainRow (19 / 10) 5 20 2])] false = .error .zeroDivision := by
  refine C79_violated_interval _ _ ?_ _ (List.mem_singleton_self _) [0, 1, 19 / 10] 0 (19 / 10) rfl rfl rfl (by norm_num)
  intro p hp
  rw [List.mem_singleton] at hp; subst hp
  exact ⟨[0, 1, 19 / 10], 0, 19 / 10, rfl, by simp, rfl, rfl, by norm_num⟩

/-- A whole run: a low battery and an overfull stack are reported, and nothing else. -/
example : ((verifyHuddle demoHuddle false).toOption.map fun out =>
      (out.printed.individual.errors, out.printed.individual.warnings, out.printed.group.errors, out.printed.group.agree)) =
    some ([⟨.battMin, some (bytes "065")⟩], [⟨.unusedStack, none⟩], [], true) := by
  decide +kernel

end Gemlog
