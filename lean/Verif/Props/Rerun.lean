import Verif.Props.Batch

/-!
# C37: repeating an interrupted `gemconvert`

`Props/Names.lean` has the part of C37 about the segments of one conversion. Here it is about the command: several conversions are at work, in any interleaving, when
they are all killed. The files being written at that moment hold anything. Then the command is given again.
-/

namespace Gemlog

/-- The conversion is about to write this file, or in the middle of writing it. -/
def InHand {γ : Type} (j : Proc γ) (key : Folder × List Nat) : Prop :=
  (∃ k c l, (j.todo = .start k c :: l ∨ j.todo = .extend k c :: l) ∧ key.1 = k ∧ j.file k = some key.2) ∨
  ∃ a c l, j.todo = .segment a c :: l ∧ key = (.converted, convertedName j.id j.fmt a)

/-- A disk after the conversions `s.1` were killed: files that were not being written are as they were. -/
def KilledAt {γ : Type} (s : List (Proc γ) × Disk γ) (d : Disk γ) : Prop :=
  ∀ key, d.get key = s.2.get key ∨ ∃ j ∈ s.1, InHand j key

/-- The first unused number of a summary file. -/
def FirstFree {γ : Type} (d : Disk γ) (k : Folder) (sn : List Nat) (n : Nat) : Prop :=
  d.get (k, summaryName k sn n) = none ∧ ∀ m < n, (d.get (k, summaryName k sn m)).isSome

/-! ## What the instructions up to a failure write -/

/-- Is it a failure? -/
def Instr.fails {γ : Type} : Instr γ → Bool
  | .fail => true
  | _ => false

/-- The segments a conversion gets to write. -/
def Segs {γ : Type} (j : Proc γ) (l : List (Instr γ)) (x : List Nat) : Prop :=
  ∃ a c, Instr.segment a c ∈ l.takeWhile (fun i => !i.fails) ∧ x = convertedName j.id j.fmt a

theorem Segs.congr {γ : Type} {i j : Proc γ} {l : List (Instr γ)} {x : List Nat} (h : Segs i l x) (h1 : j.id = i.id) (h2 : j.fmt = i.fmt) :
    Segs j l x := by
  obtain ⟨a, c, h, e⟩ := h
  exact ⟨a, c, h, by rw [h1, h2]; exact e⟩

theorem Segs.cons {γ : Type} {j : Proc γ} {l : List (Instr γ)} {x : List Nat} {i : Instr γ} (h : Segs j l x) (hi : i.fails = false) :
    Segs j (i :: l) x := by
  obtain ⟨a, c, h, e⟩ := h
  exact ⟨a, c, by rw [List.takeWhile_cons_of_pos (by simp [hi])]; exact List.mem_cons_of_mem _ h, e⟩

theorem Segs.of_cons {γ : Type} {j : Proc γ} {l : List (Instr γ)} {x : List Nat} {i : Instr γ} (h : Segs j (i :: l) x)
    (hi : ∀ a c, i = .segment a c → x ≠ convertedName j.id j.fmt a) : Segs j l x := by
  obtain ⟨a, c, h, e⟩ := h
  rw [List.takeWhile_cons] at h
  split at h
  · rcases List.mem_cons.mp h with h | h
    · exact absurd e (hi a c h.symm)
    · exact ⟨a, c, h, e⟩
  · simp at h

/-- A step writes no other segment than those. -/
theorem step_segs {γ : Type} (j : Proc γ) (d : Disk γ) (x : List Nat) :
    ((stepProc j d).2.get (.converted, x) = d.get (.converted, x) ∨ Segs j j.todo x) ∧
    (Segs (stepProc j d).1 (stepProc j d).1.todo x → Segs j j.todo x) := by
  obtain ⟨s1, s2, s3⟩ := step_identity j d
  constructor
  · rw [stepProc]
    split
    · exact .inl rfl
    · exact .inl rfl
    · split <;> exact .inl rfl
    · exact .inl rfl
    · rename_i i l h1 h2 h3 ht
      unfold act
      split
      · exact .inl rfl
      · exact .inl rfl
      · rename_i k c
        left
        split
        · rename_i f hf
          rw [Disk.get_put, if_neg]
          intro e
          simp only [Prod.mk.injEq] at e
          rw [e.1] at hf
          simp [Proc.file] at hf
        · rfl
      · rename_i k c
        left
        split
        · rename_i f hf
          rw [Disk.get_put, if_neg]
          intro e
          simp only [Prod.mk.injEq] at e
          rw [e.1] at hf
          simp [Proc.file] at hf
        · rfl
      · rename_i a c
        by_cases hx : x = convertedName j.id j.fmt a
        · right
          refine ⟨a, c, ?_, hx⟩
          rw [ht, List.takeWhile_cons_of_pos (by rfl)]
          exact List.mem_cons_self ..
        · left
          rw [Disk.get_put, if_neg]
          intro e
          simp only [Prod.mk.injEq] at e
          exact hx e.2.symm
      · exact .inl rfl
  · intro h
    replace h := h.congr s2.symm s3.symm
    rcases step_todo j d with e | ⟨i, e⟩ | ⟨k, l, e, e', _⟩
    · rw [e] at h; obtain ⟨a, c, h, _⟩ := h; simp at h
    · by_cases hi : i.fails
      · have : i = .fail := by cases i <;> simp [Instr.fails] at hi ⊢
        subst this
        have : (stepProc j d).1.todo = [] := by
          rw [stepProc, e]
        rw [this] at h; obtain ⟨a, c, h, _⟩ := h; simp at h
      · rw [e]
        exact h.cons (by simpa using hi)
    · rw [e'] at h
      rw [e]
      exact (h.of_cons (by simp)).cons rfl

/-- What an interrupted batch has done to the converted files: only files that the conversions write may have changed. -/
theorem schedule_segs {γ : Type} (js : List (Proc γ)) (d : Disk γ) (sched : List Nat) (x : List Nat) :
    ((runSchedule sched (js, d)).2.get (.converted, x) = d.get (.converted, x) ∨ ∃ j ∈ js, Segs j j.todo x) ∧
    ∀ j' ∈ (runSchedule sched (js, d)).1, Segs j' j'.todo x → ∃ j ∈ js, Segs j j.todo x := by
  unfold runSchedule
  have h1 : (js, d).2.get (.converted, x) = d.get (.converted, x) ∨ ∃ j ∈ js, Segs j j.todo x := .inl rfl
  have h2 : ∀ j' ∈ (js, d).1, Segs j' j'.todo x → ∃ j ∈ js, Segs j j.todo x := fun j' hj' h => ⟨j', hj', h⟩
  generalize (js, d) = s at h1 h2
  induction sched generalizing s with
  | nil => exact ⟨h1, h2⟩
  | cons i r ih =>
    rw [List.foldl_cons]
    apply ih
    · unfold stepAt
      split
      · exact h1
      · rename_i j hj
        rcases (step_segs j s.2 x).1 with h | h
        · rw [h]; exact h1
        · exact .inr (h2 j (List.mem_of_getElem? hj) h)
    · unfold stepAt
      split
      · exact h2
      · rename_i j hj
        intro j' hj' h
        rcases List.mem_or_eq_of_mem_set hj' with h' | h'
        · exact h2 j' h' h
        · subst h'
          exact h2 j (List.mem_of_getElem? hj) ((step_segs j s.2 x).2 h)

/-! ## The same conversion on two disks -/

theorem summaryName_inj {k : Folder} {sn : List Nat} {m n : Nat} (h : summaryName k sn m = summaryName k sn n) : m = n := by
  cases k <;> exact indexedName_injective _ _ _ _ _ h

theorem chooseName_free {γ : Type} {d : Disk γ} {k : Folder} {sn : List Nat} {n : Nat} (hk : k ≠ .converted) (h : FirstFree d k sn n) :
    chooseName d k sn = some (summaryName k sn n) := by
  have key : ∀ (dir ty : List Nat), (∀ m, summaryName k sn m = indexedName dir sn ty m) →
      makeFilename (d.names k) dir sn ty = some (summaryName k sn n) := by
    intro dir ty he
    obtain ⟨m, h1, h2, h3⟩ := nameLoop_spec (d.names k) (indexedName dir sn ty) (indexedName_injective dir sn ty) ((d.names k).length + 1) 0
      (by omega) (by omega)
    unfold makeFilename
    rw [h1, he]
    rw [Disk.mem_names, ← he] at h2
    have : m = n := by
      rcases Nat.lt_trichotomy m n with hlt | heq | hgt
      · exact absurd (h.2 m hlt) h2
      · exact heq
      · have := h3 n hgt
        rw [Disk.mem_names, ← he, h.1] at this
        simp at this
    rw [this]
  cases k with
  | gps => exact key _ _ fun _ => rfl
  | metadata => exact key _ _ fun _ => rfl
  | converted => exact absurd rfl hk

/-- Two disks, and a conversion on each, which do the same from here on: the summary files chosen have the same content, and the converted files are the same but for those
that will be written, as far as `P` says. -/
structure Twin {γ : Type} (P : List Nat → Prop) (l : List (Instr γ)) (j j' : Proc γ) (d d' : Disk γ) (f f' : Folder → List Nat) : Prop where
  id : j'.id = j.id
  fmt : j'.fmt = j.fmt
  file : ∀ k, k ≠ .converted → j.file k = some (f k) ∧ j'.file k = some (f' k)
  same : ∀ k, k ≠ .converted → d.get (k, f k) = d'.get (k, f' k)
  segs : ∀ x, P x → d.get (.converted, x) = d'.get (.converted, x) ∨ Segs j l x

theorem Proc.file_todo {γ : Type} (j : Proc γ) (l : List (Instr γ)) (k : Folder) : ({ j with todo := l } : Proc γ).file k = j.file k := by
  cases k <;> rfl

theorem Proc.file_converted {γ : Type} {j : Proc γ} {k : Folder} {f : List Nat} (h : j.file k = some f) : k ≠ .converted := by
  rintro rfl; simp [Proc.file] at h

/-- The rest of a conversion: appending, segments, failures. -/
def IsRest {γ : Type} (l : List (Instr γ)) : Prop := ∀ x ∈ l, x = .fail ∨ (∃ k c, x = .extend k c) ∨ ∃ a c, x = .segment a c

theorem Twin.run {γ : Type} (P : List Nat → Prop) (l : List (Instr γ)) : ∀ (j j' : Proc γ) (d d' : Disk γ) (f f' : Folder → List Nat), IsRest l →
    Twin P l j j' d d' f f' →
    (∀ k, k ≠ .converted → (effect l j d).get (k, f k) = (effect l j' d').get (k, f' k)) ∧
    (∀ x, P x → (effect l j d).get (.converted, x) = (effect l j' d').get (.converted, x)) ∧
    (∀ k name, k ≠ .converted → name ≠ f k → (effect l j d).get (k, name) = d.get (k, name)) := by
  induction l with
  | nil =>
    intro j j' d d' f f' _ h
    refine ⟨h.same, fun x hP => ?_, fun _ _ _ _ => rfl⟩
    rcases h.segs x hP with h | ⟨a, c, h, _⟩
    · exact h
    · simp at h
  | cons i l ih =>
    intro j j' d d' f f' hr h
    have hr' : IsRest l := fun x hx => hr x (List.mem_cons_of_mem _ hx)
    rcases hr i (by simp) with rfl | ⟨k, c, rfl⟩ | ⟨a, c, rfl⟩
    · refine ⟨h.same, fun x hP => ?_, fun _ _ _ _ => rfl⟩
      rcases h.segs x hP with h | ⟨a, c, h, _⟩
      · exact h
      · simp [Instr.fails] at h
    · rw [effect, effect]
      any_goals simp
      by_cases hk : k = .converted
      · subst hk
        have e1 : ∀ (j : Proc γ) (d : Disk γ), act (.extend .converted c) { j with todo := l } d = ({ j with todo := l }, d) := by
          intro j d; simp [act, Proc.file]
        rw [e1, e1]
        refine ih _ _ _ _ f f' hr' ⟨h.id, h.fmt, ?_, h.same, ?_⟩
        · intro k hk; rw [Proc.file_todo, Proc.file_todo]; exact h.file k hk
        · intro x hP
          exact (h.segs x hP).imp_right fun h => (h.of_cons (by simp)).congr rfl rfl
      · obtain ⟨f1, f2⟩ := h.file k hk
        have e1 : ∀ (j : Proc γ) (d : Disk γ) (g : List Nat), j.file k = some g → act (.extend k c) { j with todo := l } d =
            ({ j with todo := l }, d.put (k, g) ((d.get (k, g)).getD [] ++ [c])) := by
          intro j d g hg; simp only [act, Proc.file_todo, hg]
        rw [e1 j d _ f1, e1 j' d' _ f2]
        have ht : Twin P l { j with todo := l } { j' with todo := l } (d.put (k, f k) ((d.get (k, f k)).getD [] ++ [c]))
            (d'.put (k, f' k) ((d'.get (k, f' k)).getD [] ++ [c])) f f' := by
          refine ⟨h.id, h.fmt, ?_, ?_, ?_⟩
          · intro k' hk'; rw [Proc.file_todo, Proc.file_todo]; exact h.file k' hk'
          · intro k' hk'
            rw [Disk.get_put, Disk.get_put]
            by_cases hkk : k = k'
            · subst hkk
              rw [if_pos rfl, if_pos rfl, h.same k hk']
            · rw [if_neg (by simp [hkk]), if_neg (by simp [hkk])]
              exact h.same k' hk'
          · intro x hP
            rw [Disk.get_put, Disk.get_put, if_neg (by simp [hk]), if_neg (by simp [hk])]
            exact (h.segs x hP).imp_right fun h => (h.of_cons (by simp)).congr rfl rfl
        obtain ⟨a1, a2, a3⟩ := ih _ _ _ _ f f' hr' ht
        refine ⟨a1, a2, ?_⟩
        intro k' name hk' hn
        rw [a3 k' name hk' hn, Disk.get_put, if_neg]
        intro e
        simp only [Prod.mk.injEq] at e
        obtain ⟨rfl, e⟩ := e
        exact hn e.symm
    · rw [effect, effect]
      any_goals simp
      have e1 : ∀ (j : Proc γ) (d : Disk γ), act (.segment a c) { j with todo := l } d =
          ({ j with todo := l }, d.put (.converted, convertedName j.id j.fmt a) [c]) := fun _ _ => rfl
      have hname : convertedName j'.id j'.fmt a = convertedName j.id j.fmt a := by rw [h.id, h.fmt]
      rw [e1 j d, e1 j' d', hname]
      have ht : Twin P l { j with todo := l } { j' with todo := l } (d.put (.converted, convertedName j.id j.fmt a) [c])
          (d'.put (.converted, convertedName j.id j.fmt a) [c]) f f' := by
        refine ⟨h.id, h.fmt, ?_, ?_, ?_⟩
        · intro k' hk'; rw [Proc.file_todo, Proc.file_todo]; exact h.file k' hk'
        · intro k' hk'
          rw [Disk.get_put, Disk.get_put, if_neg (by simp [Ne.symm hk']), if_neg (by simp [Ne.symm hk'])]
          exact h.same k' hk'
        · intro x hP
          rw [Disk.get_put, Disk.get_put]
          by_cases hx : x = convertedName j.id j.fmt a
          · left; simp [hx]
          · have : ¬ (Folder.converted, convertedName j.id j.fmt a) = (Folder.converted, x) := by
              intro e; simp only [Prod.mk.injEq] at e; exact hx e.2.symm
            rw [if_neg this, if_neg this]
            refine (h.segs x hP).imp_right fun h => (h.of_cons ?_).congr rfl rfl
            intro a' c' e
            cases e
            exact hx
      obtain ⟨a1, a2, a3⟩ := ih _ _ _ _ f f' hr' ht
      refine ⟨a1, a2, ?_⟩
      intro k' name hk' hn
      rw [a3 k' name hk' hn, Disk.get_put, if_neg (by simp [Ne.symm hk'])]

/-- A conversion on two disks that differ, of its own converted files, only in those it writes. -/
theorem effect_twice {γ : Type} {j : Proc γ} (P : List Nat → Prop) (h : Started j) (d d' : Disk γ)
    (hs : ∀ x, P x → d.get (.converted, x) = d'.get (.converted, x) ∨ Segs j j.todo x)
    (n n' : Folder → Nat) (hn : ∀ k, k ≠ .converted → FirstFree d k j.sn (n k)) (hn' : ∀ k, k ≠ .converted → FirstFree d' k j.sn (n' k)) :
    (∀ k, k ≠ .converted → (effect j.todo j d).get (k, summaryName k j.sn (n k)) = (effect j.todo j d').get (k, summaryName k j.sn (n' k))) ∧
    (∀ x, P x → (effect j.todo j d).get (.converted, x) = (effect j.todo j d').get (.converted, x)) ∧
    (∀ k name, k ≠ .converted → name ≠ summaryName k j.sn (n k) → (effect j.todo j d).get (k, name) = d.get (k, name)) := by
  obtain ⟨hg, hm, ht⟩ := h
  rcases ht with ht | ⟨m, g, rest, ht, hr⟩
  · rw [ht]
    refine ⟨?_, ?_, fun _ _ _ _ => rfl⟩
    · intro k hk
      show d.get _ = d'.get _
      rw [(hn k hk).1, (hn' k hk).1]
    · intro x hP
      show d.get _ = d'.get _
      rcases hs x hP with h | h
      · exact h
      · rw [ht] at h
        obtain ⟨a, c, h, _⟩ := h
        simp [Instr.fails] at h
  · have e : ∀ (d : Disk γ) (n : Folder → Nat), (∀ k, k ≠ .converted → FirstFree d k j.sn (n k)) → ∃ i : Proc γ, i.id = j.id ∧ i.fmt = j.fmt ∧
        (∀ k, k ≠ .converted → i.file k = some (summaryName k j.sn (n k))) ∧
        effect j.todo j d = effect rest i ((d.put (.metadata, summaryName .metadata j.sn (n .metadata)) [m]).put (.gps, summaryName .gps j.sn (n .gps)) [g]) := by
      intro d n hn
      have c1 := chooseName_free (by simp) (hn .gps (by simp))
      have c2 := chooseName_free (by simp) (hn .metadata (by simp))
      refine ⟨{ j with gpsFile := some (summaryName .gps j.sn (n .gps)), metaFile := some (summaryName .metadata j.sn (n .metadata)), todo := rest },
        rfl, rfl, ?_, ?_⟩
      · intro k hk
        cases k
        · rfl
        · rfl
        · exact absurd rfl hk
      · rw [ht]
        unfold procInstrs
        simp only [List.cons_append, List.nil_append, effect, act, c1, c2, Proc.file]
    obtain ⟨i, i1, i2, i3, i4⟩ := e d n hn
    obtain ⟨i', i1', i2', i3', i4'⟩ := e d' n' hn'
    rw [i4, i4']
    have hrest : IsRest rest := by
      intro x hx
      rcases hr x hx with h | h | ⟨a, c, h, _⟩
      · exact .inl h
      · exact .inr (.inl h)
      · exact .inr (.inr ⟨a, c, h⟩)
    have htw : Twin P rest i i'
        ((d.put (.metadata, summaryName .metadata j.sn (n .metadata)) [m]).put (.gps, summaryName .gps j.sn (n .gps)) [g])
        ((d'.put (.metadata, summaryName .metadata j.sn (n' .metadata)) [m]).put (.gps, summaryName .gps j.sn (n' .gps)) [g])
        (fun k => summaryName k j.sn (n k)) (fun k => summaryName k j.sn (n' k)) := by
      refine ⟨i1'.trans i1.symm, i2'.trans i2.symm, ?_, ?_, ?_⟩
      · intro k hk
        exact ⟨i3 k hk, i3' k hk⟩
      · intro k hk
        simp only [Disk.get_put]
        cases k
        · simp
        · simp
        · exact absurd rfl hk
      · intro x hP
        simp only [Disk.get_put, Prod.mk.injEq, reduceCtorEq, false_and, if_false]
        refine (hs x hP).imp_right fun h => ?_
        rw [ht] at h
        unfold procInstrs at h
        simp only [List.cons_append, List.nil_append] at h
        iterate 7 replace h := h.of_cons (by simp)
        exact h.congr i1 i2
    obtain ⟨a1, a2, a3⟩ := Twin.run P rest i i' _ _ _ _ hrest htw
    refine ⟨a1, a2, ?_⟩
    intro k name hk hne
    rw [a3 k name hk hne, Disk.get_put, Disk.get_put, if_neg, if_neg]
    · rintro ⟨⟩; exact hne rfl
    · rintro ⟨⟩; exact hne rfl

/-- In a batch, a converted file of one conversion is written by no other. -/
theorem IsBatch.segs_own {γ : Type} {js : List (Proc γ)} (hb : IsBatch js) {i j : Proc γ} (hi : i ∈ js) (hj : j ∈ js) {x : List Nat}
    (ho : Owns j (.converted, x)) (hs : Segs i i.todo x) : Segs j j.todo x := by
  have hoi : Owns i (.converted, x) := by
    obtain ⟨a, c, h, e⟩ := hs
    exact ⟨a, (hb.1 i hi).1.ok.1.datable a c ((List.takeWhile_sublist _).mem h), e⟩
  obtain ⟨n, hn⟩ := List.getElem?_of_mem hi
  obtain ⟨m, hm⟩ := List.getElem?_of_mem hj
  by_cases hnm : n = m
  · subst hnm
    rw [hn] at hm
    cases hm
    exact hs
  · obtain ⟨f1, f2, f3, f4⟩ := pairwise_get hb.apart (fun _ _ => Apart.symm) hnm hn hm
    exact absurd ho (owns_disjoint f1 f2 f3 f4 _ hoi)

/-- What is left by a batch that was killed: of the converted files of a conversion, only those differ that it writes. -/
theorem killed_segs {γ : Type} {js : List (Proc γ)} {d killed : Disk γ} (hb : IsBatch js) {sched : List Nat}
    (hk : KilledAt (runSchedule sched (js, d)) killed) {j : Proc γ} (hj : j ∈ js) {x : List Nat} (ho : Owns j (.converted, x)) :
    killed.get (.converted, x) = d.get (.converted, x) ∨ Segs j j.todo x := by
  obtain ⟨h1, h2⟩ := schedule_segs js d sched x
  rcases hk (.converted, x) with h | ⟨j', hj', hin⟩
  · rcases h1 with h1 | ⟨i, hi, hs⟩
    · exact .inl (h.trans h1)
    · exact .inr (hb.segs_own hi hj ho hs)
  · have hs : Segs j' j'.todo x := by
      rcases hin with ⟨k, c, l, _, rfl, hf⟩ | ⟨a, c, l, ht, e⟩
      · simp [Proc.file] at hf
      · simp only [Prod.mk.injEq, true_and] at e
        refine ⟨a, c, ?_, e⟩
        rw [ht, List.takeWhile_cons_of_pos (by rfl)]
        exact List.mem_cons_self ..
    obtain ⟨i, hi, hs⟩ := h2 j' hj' hs
    exact .inr (hb.segs_own hi hj ho hs)

/-! ## The theorems -/

theorem firstFree_exists {γ : Type} (d : Disk γ) (sn : List Nat) (k : Folder) : ∃ n, FirstFree d k sn n := by
  have key : ∀ (dir ty : List Nat), (∀ m, summaryName k sn m = indexedName dir sn ty m) → ∃ n, FirstFree d k sn n := by
    intro dir ty he
    obtain ⟨m, _, h2, h3⟩ := nameLoop_spec (d.names k) (indexedName dir sn ty) (indexedName_injective dir sn ty) ((d.names k).length + 1) 0
      (by omega) (by omega)
    refine ⟨m, ?_, ?_⟩
    · rw [Disk.mem_names, ← he] at h2
      simpa using h2
    · intro i hi
      have := h3 i hi
      rw [Disk.mem_names, ← he] at this
      exact this
  cases k
  · exact key _ _ fun _ => rfl
  · exact key _ _ fun _ => rfl
  · exact key _ _ fun _ => rfl

theorem owns_summary {γ : Type} (j : Proc γ) {k : Folder} (hk : k ≠ .converted) (n : Nat) : Owns j (k, summaryName k j.sn n) := by
  cases k
  · exact ⟨n, rfl⟩
  · exact ⟨n, rfl⟩
  · exact absurd rfl hk

/-- **C37 for the command.** Let the conversions of a batch work in any interleaving, from any disk, and let them be killed at any moment; the files being written hold
anything. If the command is then given again and the folders exist, then, however the conversions interleave, when all have ended, each instrument has the same converted
files as after a run of its own that was never interrupted. Its metadata and GPS tables are complete, the same as those of that run, under the first unused number; and
all other tables, also those the killed run left, are as they were. -/
theorem C37_command {γ : Type} (js : List (Proc γ)) (hb : IsBatch js) (d : Disk γ) (sched : List Nat) (killed : Disk γ)
    (hk : KilledAt (runSchedule sched (js, d)) killed) (hd : ∀ k, k ∈ killed.dirs) (again : List Nat)
    (hend : ∀ j ∈ (runSchedule again (js, killed)).1, j.todo = []) (j : Proc γ) (hj : j ∈ js) :
    (∀ a, Datable a → (runSchedule again (js, killed)).2.get (.converted, convertedName j.id j.fmt a) =
      (aloneDisk j d).get (.converted, convertedName j.id j.fmt a)) ∧
    ∀ k, k ≠ .converted → ∃ n n0, FirstFree killed k j.sn n ∧ FirstFree d k j.sn n0 ∧
      (runSchedule again (js, killed)).2.get (k, summaryName k j.sn n) = (aloneDisk j d).get (k, summaryName k j.sn n0) ∧
      ∀ m, m ≠ n → (runSchedule again (js, killed)).2.get (k, summaryName k j.sn m) = killed.get (k, summaryName k j.sn m) := by
  have hs := (hb.1 j hj).1
  choose n hn using firstFree_exists killed j.sn
  choose n0 hn0 using firstFree_exists d j.sn
  obtain ⟨e1, e2, e3⟩ := effect_twice (fun x => Owns j (.converted, x)) hs killed d (fun x ho => killed_segs hb hk hj ho) n n0
    (fun k _ => hn k) (fun k _ => hn0 k)
  have h1 : ∀ key, Owns j key → (runSchedule again (js, killed)).2.get key = (effect j.todo j killed).get key := by
    intro key ho
    rw [C46_any_schedule_partial js killed hb hd again hend j hj key ho, alone_effect hs killed key ho]
  have h2 : ∀ key, Owns j key → (aloneDisk j d).get key = (effect j.todo j d).get key := fun key ho => alone_effect hs d key ho
  refine ⟨?_, ?_⟩
  · intro a ha
    have ho : Owns j (.converted, convertedName j.id j.fmt a) := ⟨a, ha, rfl⟩
    rw [h1 _ ho, h2 _ ho]
    exact e2 _ ho
  · intro k hkc
    refine ⟨n k, n0 k, hn k, hn0 k, ?_, ?_⟩
    · rw [h1 _ (owns_summary j hkc _), h2 _ (owns_summary j hkc _)]
      exact e1 k hkc
    · intro m hm
      rw [h1 _ (owns_summary j hkc _)]
      exact e3 k _ hkc fun e => hm (summaryName_inj e)

/-- **C37 for one conversion.** The same with a single process, also if the folders are missing. -/
theorem C37_alone {γ : Type} (j : Proc γ) (hs : Started j) (h3 : j.sn.length = 3) (d : Disk γ) (steps : Nat) (killed : Disk γ)
    (hk : KilledAt (runSchedule (List.replicate steps 0) ([j], d)) killed) :
    (∀ a, Datable a → (aloneDisk j killed).get (.converted, convertedName j.id j.fmt a) =
      (aloneDisk j d).get (.converted, convertedName j.id j.fmt a)) ∧
    ∀ k, k ≠ .converted → ∃ n n0, FirstFree killed k j.sn n ∧ FirstFree d k j.sn n0 ∧
      (aloneDisk j killed).get (k, summaryName k j.sn n) = (aloneDisk j d).get (k, summaryName k j.sn n0) ∧
      ∀ m, m ≠ n → (aloneDisk j killed).get (k, summaryName k j.sn m) = killed.get (k, summaryName k j.sn m) := by
  have hb : IsBatch [j] := ⟨by simpa using ⟨hs, h3⟩, List.pairwise_singleton ..⟩
  have hj : j ∈ [j] := by simp
  choose n hn using firstFree_exists killed j.sn
  choose n0 hn0 using firstFree_exists d j.sn
  obtain ⟨e1, e2, e3⟩ := effect_twice (fun x => Owns j (.converted, x)) hs killed d (fun x ho => killed_segs hb hk hj ho) n n0
    (fun k _ => hn k) (fun k _ => hn0 k)
  have h1 : ∀ d key, Owns j key → (aloneDisk j d).get key = (effect j.todo j d).get key := fun d key ho => alone_effect hs d key ho
  refine ⟨?_, ?_⟩
  · intro a ha
    have ho : Owns j (.converted, convertedName j.id j.fmt a) := ⟨a, ha, rfl⟩
    rw [h1 _ _ ho, h1 _ _ ho]
    exact e2 _ ho
  · intro k hkc
    refine ⟨n k, n0 k, hn k, hn0 k, ?_, ?_⟩
    · rw [h1 _ _ (owns_summary j hkc _), h1 _ _ (owns_summary j hkc _)]
      exact e1 k hkc
    · intro m hm
      rw [h1 _ _ (owns_summary j hkc _)]
      exact e3 k _ hkc fun e => hm (summaryName_inj e)

/-- Killed while 012 writes its first segment and 034 its GPS table: both files hold something else. -/
def killedDisk : Disk Nat :=
  ((runSchedule (List.replicate 7 0 ++ List.replicate 6 1) ([procA, procB], ⟨[.gps, .metadata, .converted], []⟩)).2.put
    (.converted, bytes "2020-09-13T12_26_40.XP.012..HDF.mseed") [77]).put (.gps, bytes "gps/034gps_000.txt") [78]

/-- The theorem applies to it, and says something: the broken segment is whole after the second run, whose tables have the number 1. -/
example : KilledAt (runSchedule (List.replicate 7 0 ++ List.replicate 6 1) ([procA, procB], ⟨[.gps, .metadata, .converted], []⟩)) killedDisk ∧
    killedDisk.get (.converted, bytes "2020-09-13T12_26_40.XP.012..HDF.mseed") = some [77] ∧
    (runSchedule (List.replicate 12 0 ++ List.replicate 12 1) ([procA, procB], killedDisk)).2.get
      (.converted, bytes "2020-09-13T12_26_40.XP.012..HDF.mseed") = some [3] ∧
    (runSchedule (List.replicate 12 0 ++ List.replicate 12 1) ([procA, procB], killedDisk)).2.get
      (.metadata, bytes "metadata/012metadata_001.txt") = some [1, 4] ∧
    (runSchedule (List.replicate 12 0 ++ List.replicate 12 1) ([procA, procB], killedDisk)).2.get
      (.gps, bytes "gps/034gps_000.txt") = some [78] := by
  refine ⟨?_, by decide +kernel, by decide +kernel, by decide +kernel, by decide +kernel⟩
  intro key
  unfold killedDisk
  rw [Disk.get_put, Disk.get_put]
  by_cases h1 : (Folder.gps, bytes "gps/034gps_000.txt") = key
  · right
    have : ∃ j, (runSchedule (List.replicate 7 0 ++ List.replicate 6 1) ([procA, procB], ⟨[.gps, .metadata, .converted], []⟩)).1[1]? = some j ∧
        j.todo = .start .gps 7 :: j.todo.tail ∧ j.file .gps = some (bytes "gps/034gps_000.txt") :=
      ⟨_, rfl, by decide +kernel, by decide +kernel⟩
    obtain ⟨j, hj, h2, h3⟩ := this
    exact ⟨j, List.mem_of_getElem? hj, .inl ⟨.gps, 7, _, .inl h2, by rw [← h1], by rw [← h1]; exact h3⟩⟩
  · rw [if_neg h1]
    by_cases h2 : (Folder.converted, bytes "2020-09-13T12_26_40.XP.012..HDF.mseed") = key
    · right
      have : ∃ j, (runSchedule (List.replicate 7 0 ++ List.replicate 6 1) ([procA, procB], ⟨[.gps, .metadata, .converted], []⟩)).1[0]? = some j ∧
          j.todo = .segment 160000000000 3 :: j.todo.tail ∧ convertedName j.id j.fmt 160000000000 = bytes "2020-09-13T12_26_40.XP.012..HDF.mseed" :=
        ⟨_, rfl, by decide +kernel, by decide +kernel⟩
      obtain ⟨j, hj, h3, h4⟩ := this
      exact ⟨j, List.mem_of_getElem? hj, .inr ⟨_, _, _, h3, by rw [h4, h2]⟩⟩
    · rw [if_neg h2]
      exact .inl rfl

end Gemlog
