import Verif.Props.ReadGemMore

/-!
# C55: which fixes are suspect
-/

namespace Gemlog

/-- Fix `f`, with the fixes before and after it (if any): it lies in the future, before 2015, exactly on the equator or on the prime meridian, or more than a day
from both of its neighbours. -/
def SuspectFix (now : Rat) (before : Option Fix) (f : Fix) (after : Option Fix) : Prop :=
  now < f.t ∨ (∃ y, f.year = some y ∧ y < 2015) ∨ f.lat = some 0 ∨ f.lon = some 0 ∨
    ((∃ p, before = some p ∧ 86400 < |f.t - p.t|) ∧ ∃ n, after = some n ∧ 86400 < |f.t - n.t|)

/-- The fixes of a list that are not suspect. -/
inductive Unsuspected (now : Rat) : Option Fix → List Fix → List Fix → Prop
  | nil (b : Option Fix) : Unsuspected now b [] []
  | keep (b : Option Fix) (f : Fix) (l r : List Fix) : ¬ SuspectFix now b f l.head? → Unsuspected now (some f) l r → Unsuspected now b (f :: l) (f :: r)
  | drop (b : Option Fix) (f : Fix) (l r : List Fix) : SuspectFix now b f l.head? → Unsuspected now (some f) l r → Unsuspected now b (f :: l) r

/-- The same by recursion, with the times before and after. -/
def goodGo (now : Rat) : Rat → List Fix → List Fix
  | _, [] => []
  | p, [f] => if badTag now p f.t f = true then [] else [f]
  | p, f :: g :: l => if badTag now p g.t f = true then goodGo now f.t (g :: l) else f :: goodGo now f.t (g :: l)

theorem goodGo_eq (now : Rat) : ∀ (gps : List Fix) (p : Rat),
    (((gps.zip ((p :: gps.map fun f => f.t).zip ((gps.map fun f => f.t).tail ++ (gps.map fun f => f.t).drop ((gps.map fun f => f.t).length - 1)))).filter
      fun q => !badTag now q.2.1 q.2.2 q.1).map Prod.fst) = goodGo now p gps
  | [], _ => rfl
  | [f], p => by
    rw [goodGo]
    simp only [List.map_cons, List.map_nil, List.tail_cons, List.nil_append, List.length_singleton, Nat.sub_self, List.drop_zero, List.zip_cons_cons, List.zip_nil_right,
      List.filter_cons, List.filter_nil]
    cases badTag now p f.t f <;> rfl
  | f :: g :: l, p => by
    have ih := goodGo_eq now (g :: l) f.t
    rw [goodGo, ← ih]
    simp only [List.map_cons, List.tail_cons, List.cons_append, List.zip_cons_cons, List.filter_cons, List.length_cons]
    simp only [Nat.add_sub_cancel, List.drop_succ_cons]
    cases badTag now p g.t f <;> simp

theorem goodFixes_go (now : Rat) (f : Fix) (l : List Fix) : goodFixes now (f :: l) = goodGo now f.t (f :: l) := by
  rw [← goodGo_eq now (f :: l) f.t]
  rfl

theorem badTag_iff (now p n : Rat) (f : Fix) : badTag now p n f = true ↔
    now < f.t ∨ (∃ y, f.year = some y ∧ y < 2015) ∨ f.lat = some 0 ∨ f.lon = some 0 ∨ (86400 < |f.t - p| ∧ 86400 < |f.t - n|) := by
  unfold badTag
  cases hy : f.year with
  | none =>
    simp only [Bool.or_eq_true, Bool.and_eq_true, decide_eq_true_eq, gt_iff_lt, reduceCtorEq, Bool.false_eq_true, false_and, exists_false, false_or, or_false]
    constructor
    · rintro (((h | h) | h) | h) <;> simp [h]
    · rintro (h | h | h | h) <;> simp [h]
  | some y =>
    simp only [Bool.or_eq_true, Bool.and_eq_true, decide_eq_true_eq, gt_iff_lt, Option.some.injEq, exists_eq_left']
    constructor
    · rintro ((((h | h) | h) | h) | h) <;> simp [h]
    · rintro (h | h | h | h | h) <;> simp [h]

theorem suspect_iff (now : Rat) (b a : Option Fix) (f : Fix) :
    SuspectFix now b f a ↔ badTag now (b.getD f).t (a.getD f).t f = true := by
  rw [badTag_iff]
  unfold SuspectFix
  have hb : (∃ p, b = some p ∧ 86400 < |f.t - p.t|) ↔ 86400 < |f.t - (b.getD f).t| := by
    cases b with
    | none => simp
    | some p => simp
  have ha : (∃ p, a = some p ∧ 86400 < |f.t - p.t|) ↔ 86400 < |f.t - (a.getD f).t| := by
    cases a with
    | none => simp
    | some p => simp
  rw [hb, ha]

theorem goodGo_unsuspected (now : Rat) : ∀ (l : List Fix) (b : Option Fix) (r : List Fix),
    Unsuspected now b l r ↔ r = goodGo now ((b.orElse fun _ => l.head?).elim 0 Fix.t) l
  | [], b, r => by
    rw [goodGo]
    constructor
    · rintro ⟨⟩; rfl
    · rintro rfl; exact .nil b
  | f :: l, b, r => by
    have ih := goodGo_unsuspected now l (some f)
    have hb : ((b.orElse fun _ => (f :: l).head?).elim 0 Fix.t) = (b.getD f).t := by cases b <;> rfl
    have step : goodGo now (b.getD f).t (f :: l) = if badTag now (b.getD f).t (l.head?.getD f).t f = true then goodGo now f.t l else f :: goodGo now f.t l := by
      cases l with
      | nil => rw [goodGo]; rfl
      | cons g l => rw [goodGo]; rfl
    have ih' : ∀ r, Unsuspected now (some f) l r ↔ r = goodGo now f.t l := fun r => ih r
    rw [hb, step]
    constructor
    · rintro (_ | ⟨_, _, _, r', h1, h2⟩ | ⟨_, _, _, _, h1, h2⟩)
      · rw [suspect_iff] at h1
        rw [if_neg h1, (ih' r').mp h2]
      · rw [suspect_iff] at h1
        rw [if_pos h1, (ih' r).mp h2]
    · split_ifs with h
      · rintro rfl
        exact .drop b f l _ ((suspect_iff now b l.head? f).mpr h) ((ih' _).mpr rfl)
      · rintro rfl
        exact .keep b f l _ (fun hs => h ((suspect_iff now b l.head? f).mp hs)) ((ih' _).mpr rfl)

/-- **C55, suspect fixes.** The search for breaks looks at exactly the fixes that are not suspect: not in the future, not before 2015, not at latitude or longitude 0, and
not more than a day away from the fixes before and after. The first and the last fix have only one neighbour and pass the last test whatever their date. -/
theorem C55_suspect (now : Rat) (gps r : List Fix) : goodFixes now gps = r ↔ Unsuspected now none gps r := by
  rw [goodGo_unsuspected]
  cases gps with
  | nil => exact eq_comm
  | cons f l => rw [goodFixes_go]; exact eq_comm

theorem goodGo_cons (now p : Rat) (f g : Fix) (l : List Fix) :
    goodGo now p (f :: g :: l) = if badTag now p g.t f = true then goodGo now f.t (g :: l) else f :: goodGo now f.t (g :: l) := by
  rw [goodGo]

theorem goodGo_append (now : Rat) : ∀ (a : List Fix) (p : Rat) (x : Fix) (l l' : List Fix),
    (∀ q, goodGo now q (x :: l) = goodGo now q (x :: l')) → goodGo now p (a ++ x :: l) = goodGo now p (a ++ x :: l')
  | [], p, x, l, l', h => h p
  | [f], p, x, l, l', h => by
    simp only [List.cons_append, List.nil_append, goodGo, h f.t]
  | f :: g :: a, p, x, l, l', h => by
    have ih := goodGo_append now (g :: a) f.t x l l' h
    simp only [List.cons_append] at ih ⊢
    simp only [goodGo]
    rw [ih]

/-- **C55, one wrong date.** A fix that is more than a day away from both its neighbours has no influence, if each of these neighbours is within a day of
its other neighbour: the search for breaks, and with it the reading of the block, goes on as if the fix were not there. -/
theorem C55_wrong_date (now : Rat) (mD : List Rat) (a b : List Fix) (o p bad n m : Fix)
    (h1 : 86400 < |bad.t - p.t|) (h2 : 86400 < |bad.t - n.t|) (hp : |p.t - o.t| ≤ 86400) (hn : |n.t - m.t| ≤ 86400) :
    findBreaks now mD (a ++ o :: p :: bad :: n :: m :: b) = findBreaks now mD (a ++ o :: p :: n :: m :: b) := by
  have key : goodFixes now (a ++ o :: p :: bad :: n :: m :: b) = goodFixes now (a ++ o :: p :: n :: m :: b) := by
    have hbad : badTag now p.t n.t bad = true := by
      rw [badTag_iff]
      exact .inr (.inr (.inr (.inr ⟨h1, h2⟩)))
    have hpt : ∀ z z', badTag now o.t z p = badTag now o.t z' p := by
      intro z z'
      rw [Bool.eq_iff_iff, badTag_iff, badTag_iff]
      simp only [not_lt.mpr hp, false_and]
    have hnt : ∀ z z', badTag now z m.t n = badTag now z' m.t n := by
      intro z z'
      rw [Bool.eq_iff_iff, badTag_iff, badTag_iff]
      simp only [not_lt.mpr hn, and_false]
    have hloc : ∀ q, goodGo now q (o :: p :: bad :: n :: m :: b) = goodGo now q (o :: p :: n :: m :: b) := by
      intro q
      have e2 : goodGo now p.t (bad :: n :: m :: b) = goodGo now p.t (n :: m :: b) := by
        rw [goodGo_cons, if_pos hbad, goodGo_cons now bad.t, goodGo_cons now p.t, hnt bad.t p.t]
      have e1 : goodGo now o.t (p :: bad :: n :: m :: b) = goodGo now o.t (p :: n :: m :: b) := by
        rw [goodGo_cons now o.t p bad, goodGo_cons now o.t p n, hpt bad.t n.t, e2]
      rw [goodGo_cons now q o p (bad :: n :: m :: b), goodGo_cons now q o p (n :: m :: b), e1]
    cases a with
    | nil => rw [List.nil_append, List.nil_append, goodFixes_go, goodFixes_go]; exact hloc o.t
    | cons f a =>
      rw [List.cons_append, List.cons_append, goodFixes_go, goodFixes_go]
      exact goodGo_append now (f :: a) f.t o _ _ hloc
  unfold findBreaks
  rw [if_neg (by simp), if_neg (by simp), key]

/-- Fixes every ten seconds in 2020, and one that is dated two days later: it is not looked at; if it comes last, it is. -/
example :
    let fixAt (ms t : Rat) : Fix := ⟨⟨ms, some 0, some 2020, some 1, some 1, some 0, some 0, some 0, some 43, some (-116)⟩, t⟩
    let bad := fixAt 25000 (172820)
    goodFixes 2000000 [fixAt 0 0, fixAt 10000 10, bad, fixAt 30000 30, fixAt 40000 40] = [fixAt 0 0, fixAt 10000 10, fixAt 30000 30, fixAt 40000 40] ∧
    goodFixes 2000000 [fixAt 0 0, fixAt 10000 10, bad] = [fixAt 0 0, fixAt 10000 10, bad] ∧
    86400 < |bad.t - (fixAt 10000 10).t| ∧ 86400 < |bad.t - (fixAt 30000 30).t| ∧ |(fixAt 10000 10).t - (fixAt 0 0).t| ≤ 86400 := by
  decide +kernel

end Gemlog
