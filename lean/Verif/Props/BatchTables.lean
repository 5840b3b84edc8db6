import Verif.Props.Batch

/-!
# C46: the summary files of a batch

Which metadata and GPS file a conversion leaves, and what is in it, when several conversions share the folders.
-/

namespace Gemlog

/-- What a conversion appends to the summary file in folder `k`, in order, until it ends or fails. -/
def appended {γ : Type} (k : Folder) : List (Instr γ) → List γ
  | [] => []
  | .fail :: _ => []
  | .extend k' c :: l => if k' = k then c :: appended k l else appended k l
  | _ :: l => appended k l

theorem effect_tables {γ : Type} (k : Folder) (hk : k ≠ .converted) (f : List Nat) : ∀ (rest : List (Instr γ)),
    (∀ x ∈ rest, x = .fail ∨ (∃ k c, x = .extend k c) ∨ ∃ a c, x = .segment a c ∧ Datable a) →
    ∀ (j : Proc γ) (d : Disk γ) (c0 : List γ), j.file k = some f → d.get (k, f) = some c0 →
      (effect rest j d).get (k, f) = some (c0 ++ appended k rest) ∧ ∀ y ≠ f, (effect rest j d).get (k, y) = d.get (k, y) := by
  intro rest
  induction rest with
  | nil =>
    intro _ j d c0 _ h
    exact ⟨by rw [effect, h]; simp [appended], fun _ _ => rfl⟩
  | cons x rest ih =>
    intro hr j d c0 hf h
    have hr' := fun y hy => hr y (List.mem_cons_of_mem x hy)
    rcases hr x (by simp) with rfl | ⟨k', c, rfl⟩ | ⟨a, c, rfl, _⟩
    · exact ⟨by rw [effect, h]; simp [appended], fun _ _ => rfl⟩
    · rw [effect] <;> try simp
      cases hf' : ({ j with todo := rest } : Proc γ).file k' with
      | none =>
        have hne : k' ≠ k := by
          rintro rfl
          have : j.file k' = none := by rw [← hf']; cases k' <;> rfl
          rw [this] at hf
          cases hf
        simp only [act, hf', appended, if_neg hne]
        exact ih hr' { j with todo := rest } d c0 (by rw [← hf]; cases k <;> rfl) h
      | some f' =>
        simp only [act, hf', appended]
        by_cases hkk : k' = k
        · subst hkk
          have e : f' = f := by
            have : j.file k' = some f' := by rw [← hf']; cases k' <;> rfl
            rw [this] at hf
            exact Option.some.inj hf
          subst e
          obtain ⟨i1, i2⟩ := ih hr' { j with todo := rest } (d.put (k', f') ((d.get (k', f')).getD [] ++ [c])) (c0 ++ [c])
            (by rw [← hf]; cases k' <;> rfl) (by rw [Disk.get_put, if_pos rfl, h]; rfl)
          refine ⟨by rw [i1]; simp, ?_⟩
          intro y hy
          rw [i2 y hy, Disk.get_put, if_neg (by simp [Ne.symm hy])]
        · obtain ⟨i1, i2⟩ := ih hr' { j with todo := rest } (d.put (k', f') ((d.get (k', f')).getD [] ++ [c])) c0
            (by rw [← hf]; cases k <;> rfl) (by rw [Disk.get_put, if_neg (by simp [hkk]), h])
          refine ⟨by rw [i1, if_neg hkk], ?_⟩
          intro y hy
          rw [i2 y hy, Disk.get_put, if_neg (by simp [hkk])]
    · rw [effect] <;> try simp
      simp only [act, appended]
      obtain ⟨i1, i2⟩ := ih hr' { j with todo := rest } (d.put (.converted, convertedName j.id j.fmt a) [c]) c0
        (by rw [← hf]; cases k <;> rfl) (by rw [Disk.get_put, if_neg (by simp [Ne.symm hk]), h])
      refine ⟨i1, ?_⟩
      intro y hy
      rw [i2 y hy, Disk.get_put, if_neg (by simp [Ne.symm hk])]

/-- The first unused index in a summary folder. -/
def UnusedBefore {γ : Type} (d : Disk γ) (k : Folder) (sn : List Nat) (n : Nat) : Prop :=
  d.get (k, summaryName k sn n) = none ∧ ∀ i < n, d.get (k, summaryName k sn i) ≠ none

theorem chooseName_unused {γ : Type} (d : Disk γ) (k : Folder) (hk : k ≠ .converted) (sn : List Nat) :
    ∃ n, chooseName d k sn = some (summaryName k sn n) ∧ UnusedBefore d k sn n := by
  cases k with
  | converted => exact absurd rfl hk
  | gps =>
    obtain ⟨n, h1, h2, h3⟩ := nameLoop_spec (d.names .gps) (indexedName (bytes "gps") sn (bytes "gps")) (indexedName_injective _ _ _)
      ((d.names .gps).length + 1) 0 (by omega) (by omega)
    refine ⟨n, h1, ?_, ?_⟩
    · have : ¬ (d.get (.gps, summaryName .gps sn n)).isSome := by rw [← Disk.mem_names]; exact h2
      simpa using this
    · intro i hi
      have : (d.get (.gps, summaryName .gps sn i)).isSome := by rw [← Disk.mem_names]; exact h3 i hi
      intro e
      rw [e] at this
      cases this
  | metadata =>
    obtain ⟨n, h1, h2, h3⟩ := nameLoop_spec (d.names .metadata) (indexedName (bytes "metadata") sn (bytes "metadata")) (indexedName_injective _ _ _)
      ((d.names .metadata).length + 1) 0 (by omega) (by omega)
    refine ⟨n, h1, ?_, ?_⟩
    · have : ¬ (d.get (.metadata, summaryName .metadata sn n)).isSome := by rw [← Disk.mem_names]; exact h2
      simpa using this
    · intro i hi
      have : (d.get (.metadata, summaryName .metadata sn i)).isSome := by rw [← Disk.mem_names]; exact h3 i hi
      intro e
      rw [e] at this
      cases this

theorem summaryName_injective {k : Folder} {sn : List Nat} {a b : Nat} (h : summaryName k sn a = summaryName k sn b) : a = b := by
  cases k <;> exact indexedName_injective _ _ _ _ _ h

/-- **C46, the summary files.** In a batch of conversions with existing output folders, however they interleave: when all have ended, the conversion of a serial
number has left its metadata table in the metadata folder and its GPS table in the GPS folder, each under the first index not in use before, each beginning with
the first block's rows and followed by the rows of the later blocks in order; and no other summary file of the serial number has changed. -/
theorem C46_summaries {γ : Type} (js : List (Proc γ)) (d : Disk γ) (hb : IsBatch js) (hd : ∀ k, k ∈ d.dirs)
    (sched : List Nat) (hend : ∀ j ∈ (runSchedule sched (js, d)).1, j.todo = []) (j : Proc γ) (hj : j ∈ js)
    (m g : γ) (rest : List (Instr γ)) (ht : j.todo = procInstrs m g rest)
    (hr : ∀ x ∈ rest, x = .fail ∨ (∃ k c, x = .extend k c) ∨ ∃ a c, x = .segment a c ∧ Datable a) :
    ∃ a b, UnusedBefore d .metadata j.sn a ∧ UnusedBefore d .gps j.sn b ∧
      (runSchedule sched (js, d)).2.get (.metadata, summaryName .metadata j.sn a) = some (m :: appended .metadata rest) ∧
      (runSchedule sched (js, d)).2.get (.gps, summaryName .gps j.sn b) = some (g :: appended .gps rest) ∧
      (∀ i ≠ a, (runSchedule sched (js, d)).2.get (.metadata, summaryName .metadata j.sn i) = d.get (.metadata, summaryName .metadata j.sn i)) ∧
      ∀ i ≠ b, (runSchedule sched (js, d)).2.get (.gps, summaryName .gps j.sn i) = d.get (.gps, summaryName .gps j.sn i) := by
  have hfin : ∀ key, Owns j key → (runSchedule sched (js, d)).2.get key = (effect j.todo j d).get key := by
    intro key hk
    rw [C46_any_schedule_partial js d hb hd sched hend j hj key hk, alone_effect (hb.1 j hj).1 d key hk]
  have owns_meta : ∀ n, Owns j (.metadata, summaryName .metadata j.sn n) := fun n => ⟨n, rfl⟩
  have owns_gps : ∀ n, Owns j (.gps, summaryName .gps j.sn n) := fun n => ⟨n, rfl⟩
  obtain ⟨a, a1, a2⟩ := chooseName_unused d .metadata (by simp) j.sn
  obtain ⟨b, b1, b2⟩ := chooseName_unused d .gps (by simp) j.sn
  have heff : ∃ j', effect j.todo j d = effect rest j' ((d.put (.metadata, summaryName .metadata j.sn a) [m]).put (.gps, summaryName .gps j.sn b) [g]) ∧
      j'.file .metadata = some (summaryName .metadata j.sn a) ∧ j'.file .gps = some (summaryName .gps j.sn b) := by
    rw [ht]
    unfold procInstrs
    simp only [List.cons_append, List.nil_append, effect, act, a1, b1, Proc.file]
    exact ⟨_, rfl, rfl, rfl⟩
  obtain ⟨j', e, f1, f2⟩ := heff
  obtain ⟨m1, m2⟩ := effect_tables .metadata (by simp) _ rest hr j' ((d.put (.metadata, summaryName .metadata j.sn a) [m]).put (.gps, summaryName .gps j.sn b) [g])
    [m] f1 (by rw [Disk.get_put, if_neg (by simp), Disk.get_put, if_pos rfl])
  obtain ⟨g1, g2⟩ := effect_tables .gps (by simp) _ rest hr j' ((d.put (.metadata, summaryName .metadata j.sn a) [m]).put (.gps, summaryName .gps j.sn b) [g])
    [g] f2 (by rw [Disk.get_put, if_pos rfl])
  refine ⟨a, b, a2, b2, ?_, ?_, ?_, ?_⟩
  · rw [hfin _ (owns_meta a), e, m1]; rfl
  · rw [hfin _ (owns_gps b), e, g1]; rfl
  · intro i hi
    have hne : summaryName .metadata j.sn i ≠ summaryName .metadata j.sn a := fun h => hi (summaryName_injective h)
    rw [hfin _ (owns_meta i), e, m2 _ hne, Disk.get_put, if_neg (by simp), Disk.get_put, if_neg (by simp [Ne.symm hne])]
  · intro i hi
    have hne : summaryName .gps j.sn i ≠ summaryName .gps j.sn b := fun h => hi (summaryName_injective h)
    rw [hfin _ (owns_gps i), e, g2 _ hne, Disk.get_put, if_neg (by simp [Ne.symm hne]), Disk.get_put, if_neg (by simp)]

/-- Two conversions at work in turn; there is a metadata file of 012 from earlier. -/
example : ∃ a b,
    UnusedBefore (⟨[.gps, .metadata, .converted], [((.metadata, bytes "metadata/012metadata_000.txt"), [0])]⟩ : Disk Nat) .metadata (bytes "012") a ∧
    UnusedBefore (⟨[.gps, .metadata, .converted], [((.metadata, bytes "metadata/012metadata_000.txt"), [0])]⟩ : Disk Nat) .gps (bytes "012") b ∧
    a = 1 ∧ appended .metadata (procA.todo.drop 7) = [4] := by
  obtain ⟨a, b, h1, h2, _⟩ := C46_summaries [procA, procB]
    ⟨[.gps, .metadata, .converted], [((.metadata, bytes "metadata/012metadata_000.txt"), [0])]⟩ demo_batch (by intro k; cases k <;> simp)
    ((List.replicate 10 [0, 1]).flatten) (all_done (by decide +kernel)) procA (by simp) 1 2 (procA.todo.drop 7) (by decide +kernel)
    (by
      have h := (demo_batch.1 procA (by simp)).1.2.2
      rcases h with h | ⟨m, g, rest, h, hr⟩
      · exact absurd h (by decide +kernel)
      · have : procA.todo.drop 7 = rest := by rw [h]; rfl
        rw [this]
        exact hr)
  refine ⟨a, b, h1, h2, ?_, by decide +kernel⟩
  have e0 : ¬ UnusedBefore (⟨[.gps, .metadata, .converted], [((.metadata, bytes "metadata/012metadata_000.txt"), [0])]⟩ : Disk Nat) .metadata (bytes "012") 0 := by
    rintro ⟨h, _⟩
    exact absurd h (by decide +kernel)
  have e1 : (⟨[.gps, .metadata, .converted], [((.metadata, bytes "metadata/012metadata_000.txt"), [0])]⟩ : Disk Nat).get
      (.metadata, summaryName .metadata (bytes "012") 1) = none := by decide +kernel
  rcases Nat.lt_trichotomy a 1 with h | h | h
  · have : a = 0 := by omega
    subst this
    exact absurd h1 e0
  · exact h
  · exact absurd e1 (h1.2 1 h)

end Gemlog
