import Verif.Lemmas.Batch

/-!
# C46: batch conversion treats serial numbers independently

`gemconvert` converts the serial numbers with several processes. A conversion is the list of its actions on the disk
(`Proc`); a schedule says whose turn it is. What a serial number comes to on its own is the measure.
-/

namespace Gemlog

/-- Converting one serial number on its own, to the end (`C46_alone_ends`). -/
def aloneDisk {γ : Type} (j : Proc γ) (d : Disk γ) : Disk γ :=
  (runSchedule (List.replicate (2 * j.todo.length) 0) ([j], d)).2

/-- A conversion as started by `gemconvert`: it fails at once, or deals with the folders, starts the two summary files, and
then appends to them, writes segments, or fails, in any order. -/
def Started {γ : Type} (j : Proc γ) : Prop :=
  j.gpsFile = none ∧ j.metaFile = none ∧
  (j.todo = [.fail] ∨ ∃ m g rest, j.todo = procInstrs m g rest ∧
    ∀ x ∈ rest, x = .fail ∨ (∃ k c, x = .extend k c) ∨ ∃ a c, x = .segment a c ∧ Datable a)

/-- The batch: serial numbers of three characters, all different, with different trace identifiers, one format. -/
def IsBatch {γ : Type} (js : List (Proc γ)) : Prop :=
  (∀ j ∈ js, Started j ∧ j.sn.length = 3) ∧
  js.Pairwise fun i j => i.sn ≠ j.sn ∧ i.id ≠ j.id ∧ i.fmt = j.fmt

theorem Started.ok {γ : Type} {j : Proc γ} (h : Started j) : j.Ok ∧ FoldersFirst j.todo ∧ NoMake j.todo := by
  obtain ⟨hg, hm, ht⟩ := h
  have hgps : ∀ f, j.gpsFile = some f → ∃ n, f = summaryName .gps j.sn n := by rw [hg]; simp
  have hmeta : ∀ f, j.metaFile = some f → ∃ n, f = summaryName .metadata j.sn n := by rw [hm]; simp
  rcases ht with ht | ⟨m, g, rest, ht, hr⟩
  · refine ⟨⟨?_, hgps, hmeta⟩, ?_, ?_⟩
    · rw [ht]; simp
    · rw [ht]; exact List.pairwise_singleton ..
    · rw [ht]; simp [NoMake]
  · have hnf : ∀ x ∈ rest, ¬ x.folder := by
      intro x hx
      rcases hr x hx with rfl | ⟨k, c, rfl⟩ | ⟨a, c, rfl, _⟩ <;> exact id
    have hnm : ∀ x ∈ rest, ∀ k, x ≠ .mkdir k := by
      intro x hx k e
      exact hnf x hx (by rw [e]; trivial)
    refine ⟨⟨?_, hgps, hmeta⟩, ?_, ?_⟩
    · rw [ht]
      intro a c hc
      unfold procInstrs at hc
      rcases List.mem_append.mp hc with h | h
      · simp at h
      · rcases hr _ h with e | ⟨k, c, e⟩ | ⟨a', c', e, hd⟩
        · cases e
        · cases e
        · cases e; exact hd
    · rw [ht]
      unfold FoldersFirst procInstrs
      refine List.pairwise_append.mpr ⟨?_, ?_, ?_⟩
      · simp [Instr.writes, Instr.folder]
      · exact List.pairwise_iff_forall_sublist.mpr fun {a b} hab _ => hnf b (hab.subset (by simp))
      · intro x _ y hy _; exact hnf y hy
    · rw [ht]
      intro k hk
      unfold procInstrs at hk
      rcases List.mem_append.mp hk with h | h
      · simp at h
      · exact hnm _ h k rfl

theorem IsBatch.apart {γ : Type} {js : List (Proc γ)} (h : IsBatch js) : js.Pairwise Apart := by
  refine List.Pairwise.imp_of_mem ?_ h.2
  rintro a b ha hb ⟨h1, h2, h3⟩
  exact ⟨h3, (h.1 a ha).2.trans (h.1 b hb).2.symm, h1, h2⟩

/-- On its own a conversion ends. -/
theorem C46_alone_ends {γ : Type} (j : Proc γ) (d : Disk γ) :
    ∃ j', (runSchedule (List.replicate (2 * j.todo.length) 0) ([j], d)).1 = [j'] ∧ j'.todo = [] :=
  sole_ends j d _ (Nat.le_refl _)

theorem alone_effect {γ : Type} {j : Proc γ} (h : Started j) (d : Disk γ) : Same j (aloneDisk j d) (effect j.todo j d) := by
  obtain ⟨h1, h2, h3⟩ := h.ok
  obtain ⟨j', hj', ht⟩ := C46_alone_ends j d
  have hw := runSchedule_sole j d h1 h2 h3 (2 * j.todo.length)
  unfold AllOnWay at hw
  rw [hj'] at hw
  rcases hw with _ | ⟨hw, _⟩
  rcases hw.state with ⟨he, _⟩ | ⟨hf, _⟩
  · rw [ht] at he; exact he
  · exact hf.elim

/-- **C46, any schedule.** If the output folders exist, then however the actions of the conversions interleave, once all
have ended the files of each serial number (its GPS and metadata summaries, and the converted files with its identifier) are
those its conversion on its own would have left, whatever became of the other serial numbers. Missing: the case that the
folders do not exist at the beginning, where it is false (`C46_violated_folders`). -/
theorem C46_any_schedule_partial {γ : Type} (js : List (Proc γ)) (d : Disk γ) (hb : IsBatch js) (hd : ∀ k, k ∈ d.dirs)
    (sched : List Nat) (hend : ∀ j ∈ (runSchedule sched (js, d)).1, j.todo = []) (j : Proc γ) (hj : j ∈ js)
    (key : Folder × List Nat) (hk : Owns j key) :
    (runSchedule sched (js, d)).2.get key = (aloneDisk j d).get key := by
  have h := runSchedule_folders js d (fun j hj => ⟨(hb.1 j hj).1.ok.1, (hb.1 j hj).1.ok.2.1⟩)
    (fun j hj => (hb.1 j hj).1.ok.2.2) hd hb.apart sched
  obtain ⟨i, hi⟩ := List.getElem?_of_mem hj
  obtain ⟨j', hj', ho⟩ := forall₂_get' h hi
  rw [alone_effect (hb.1 j hj).1 d key hk]
  rcases ho.state with ⟨he, _⟩ | ⟨hf, _⟩
  · rw [hend j' (List.mem_of_getElem? hj')] at he
    exact he key hk
  · exact hf.elim

/-- **C46, missing folders.** Whether or not the folders exist, in every interleaving each serial number is either
converted as on its own or not at all. -/
theorem C46_all_or_nothing {γ : Type} (js : List (Proc γ)) (d : Disk γ) (hb : IsBatch js)
    (sched : List Nat) (hend : ∀ j ∈ (runSchedule sched (js, d)).1, j.todo = []) (j : Proc γ) (hj : j ∈ js) :
    (∀ key, Owns j key → (runSchedule sched (js, d)).2.get key = (aloneDisk j d).get key) ∨
    (∀ key, Owns j key → (runSchedule sched (js, d)).2.get key = d.get key) := by
  have h := runSchedule_onWay js d (fun j hj => ⟨(hb.1 j hj).1.ok.1, (hb.1 j hj).1.ok.2.1⟩) hb.apart sched
  obtain ⟨i, hi⟩ := List.getElem?_of_mem hj
  obtain ⟨j', hj', ho⟩ := forall₂_get' h hi
  rcases ho.state with ⟨he, _⟩ | ⟨_, _, hs⟩
  · left
    intro key hk
    rw [alone_effect (hb.1 j hj).1 d key hk]
    rw [hend j' (List.mem_of_getElem? hj')] at he
    exact he key hk
  · right; exact hs

/-- Files that belong to no serial number of the batch are left alone. -/
theorem C46_others_untouched {γ : Type} (js : List (Proc γ)) (d : Disk γ) (hb : IsBatch js) (sched : List Nat)
    (key : Folder × List Nat) (hk : ∀ j ∈ js, ¬ Owns j key) : (runSchedule sched (js, d)).2.get key = d.get key := by
  have base : AllOnWay True js d (js, d) := .start js d fun j hj => ⟨(hb.1 j hj).1.ok.1, (hb.1 j hj).1.ok.2.1⟩
  have hg : (js, d).2.get key = d.get key := rfl
  unfold runSchedule
  generalize (js, d) = s at base hg
  induction sched generalizing s with
  | nil => exact hg
  | cons k r ih =>
    refine ih _ (base.stepAt hb.apart (fun _ _ _ _ _ _ => trivial) k) ?_
    unfold stepAt
    cases h : s.1[k]? with
    | none => exact hg
    | some j' =>
      obtain ⟨j, hj, ho⟩ := forall₂_get base h
      simp only
      rw [step_frame ho.ok s.2 key ?_]
      · exact hg
      · rw [owns_congr ho.sn ho.id ho.fmt]
        exact hk j (List.mem_of_getElem? hj)

/-- **C46, order.** With existing folders the final files do not depend on the schedule: two schedules that end leave the
same content under every name. Missing: as above. -/
theorem C46_schedule_irrelevant_partial {γ : Type} (js : List (Proc γ)) (d : Disk γ) (hb : IsBatch js) (hd : ∀ k, k ∈ d.dirs)
    (s s' : List Nat) (hs : ∀ j ∈ (runSchedule s (js, d)).1, j.todo = [])
    (hs' : ∀ j ∈ (runSchedule s' (js, d)).1, j.todo = []) (key : Folder × List Nat) :
    (runSchedule s (js, d)).2.get key = (runSchedule s' (js, d)).2.get key := by
  by_cases h : ∃ j ∈ js, Owns j key
  · obtain ⟨j, hj, hk⟩ := h
    rw [C46_any_schedule_partial js d hb hd s hs j hj key hk, C46_any_schedule_partial js d hb hd s' hs' j hj key hk]
  · push Not at h
    rw [C46_others_untouched js d hb s key h, C46_others_untouched js d hb s' key h]

/-- **C46, one process.** One after the other, whether or not the folders exist: the files of each serial number are those
of its conversion on its own, whatever became of the others. -/
theorem C46_one_process {γ : Type} (js : List (Proc γ)) (d : Disk γ) (hb : IsBatch js) (j : Proc γ) (hj : j ∈ js)
    (key : Folder × List Nat) (hk : Owns j key) :
    (js.foldl (fun d j => aloneDisk j d) d).get key = (aloneDisk j d).get key := by
  have frame : ∀ (l : List (Proc γ)) (d : Disk γ), (∀ i ∈ l, Started i ∧ i.sn.length = 3 ∧ ¬ Owns i key) →
      (l.foldl (fun d j => aloneDisk j d) d).get key = d.get key := by
    intro l
    induction l with
    | nil => intro d _; rfl
    | cons i l ih =>
      intro d h
      obtain ⟨h1, h2, h3⟩ := h i (by simp)
      rw [List.foldl_cons, ih _ fun x hx => h x (by simp [hx])]
      exact C46_others_untouched [i] d ⟨by simpa using ⟨h1, h2⟩, List.pairwise_singleton ..⟩ _ key (by simpa using h3)
  obtain ⟨a, b, rfl⟩ := List.append_of_mem hj
  have hp := hb.apart
  rw [List.pairwise_append, List.pairwise_cons] at hp
  obtain ⟨_, ⟨hjb, _⟩, hab⟩ := hp
  have hst : ∀ i ∈ a ++ j :: b, Started i ∧ i.sn.length = 3 := hb.1
  rw [List.foldl_append, List.foldl_cons]
  rw [frame b _ fun i hi => ⟨(hst i (by simp [hi])).1, (hst i (by simp [hi])).2, by
    obtain ⟨f1, f2, f3, f4⟩ := hjb i hi
    exact owns_disjoint f1 f2 f3 f4 key hk⟩]
  have hj' := hst j (by simp)
  rw [alone_effect hj'.1 _ key hk, alone_effect hj'.1 d key hk]
  refine effect_local j.todo j _ d rfl hj'.1.ok.1 ?_ key hk
  intro key' hk'
  have frame' : ∀ (l : List (Proc γ)) (d : Disk γ), (∀ i ∈ l, Started i ∧ i.sn.length = 3 ∧ ¬ Owns i key') →
      (l.foldl (fun d j => aloneDisk j d) d).get key' = d.get key' := by
    intro l
    induction l with
    | nil => intro d _; rfl
    | cons i l ih =>
      intro d h
      obtain ⟨h1, h2, h3⟩ := h i (by simp)
      rw [List.foldl_cons, ih _ fun x hx => h x (by simp [hx])]
      exact C46_others_untouched [i] d ⟨by simpa using ⟨h1, h2⟩, List.pairwise_singleton ..⟩ _ key' (by simpa using h3)
  refine frame' a d fun i hi => ⟨(hst i (by simp [hi])).1, (hst i (by simp [hi])).2, ?_⟩
  intro hoi
  obtain ⟨f1, f2, f3, f4⟩ := hab i hi j (by simp)
  exact owns_disjoint f1 f2 f3 f4 key' hoi hk'

/-! ## A concrete batch -/

/-- Serial number 012: two blocks, one segment each. -/
def procA : Proc Nat :=
  { sn := bytes "012", id := bytes "XP.012..HDF", fmt := bytes "mseed", gpsFile := none, metaFile := none,
    todo := procInstrs 1 2 [.segment 160000000000 3, .extend .metadata 4, .segment 160000360000 5] }

/-- Serial number 034: fails after its first segment. -/
def procB : Proc Nat :=
  { sn := bytes "034", id := bytes "XP.034..HDF", fmt := bytes "mseed", gpsFile := none, metaFile := none,
    todo := procInstrs 6 7 [.segment 160000000000 8, .fail, .segment 160000360000 9] }

theorem demo_batch : IsBatch [procA, procB] := by
  have d1 : Datable 160000000000 := by unfold Datable; decide +kernel
  have d2 : Datable 160000360000 := by unfold Datable; decide +kernel
  refine ⟨?_, ?_⟩
  · intro j hj
    rcases List.mem_cons.mp hj with rfl | hj
    · refine ⟨⟨rfl, rfl, .inr ⟨1, 2, _, rfl, ?_⟩⟩, by decide +kernel⟩
      intro x hx
      simp only [List.mem_cons, List.not_mem_nil, or_false] at hx
      rcases hx with rfl | rfl | rfl
      · exact .inr (.inr ⟨_, _, rfl, d1⟩)
      · exact .inr (.inl ⟨_, _, rfl⟩)
      · exact .inr (.inr ⟨_, _, rfl, d2⟩)
    · rw [List.mem_singleton.mp hj]
      refine ⟨⟨rfl, rfl, .inr ⟨6, 7, _, rfl, ?_⟩⟩, by decide +kernel⟩
      intro x hx
      simp only [List.mem_cons, List.not_mem_nil, or_false] at hx
      rcases hx with rfl | rfl | rfl
      · exact .inr (.inr ⟨_, _, rfl, d1⟩)
      · exact .inl rfl
      · exact .inr (.inr ⟨_, _, rfl, d2⟩)
  · refine List.pairwise_pair.mpr ?_
    decide +kernel

/-- Both at work in turn, with existing folders and a summary file from earlier: 034 fails, 012 is complete, and its
metadata go to the second file. -/
example :
    let d : Disk Nat := ⟨[.gps, .metadata, .converted], [((.metadata, bytes "metadata/012metadata_000.txt"), [0])]⟩
    let s := runSchedule ((List.replicate 10 [0, 1]).flatten) ([procA, procB], d)
    (s.1.map Proc.todo = [[], []]) ∧
    s.2.get (.metadata, bytes "metadata/012metadata_001.txt") = some [1, 4] ∧
    s.2.get (.metadata, bytes "metadata/012metadata_000.txt") = some [0] ∧
    s.2.get (.gps, bytes "gps/034gps_000.txt") = some [7] ∧
    s.2.get (.converted, bytes "2020-09-13T13_26_40.XP.012..HDF.mseed") = some [5] ∧
    s.2.get (.converted, bytes "2020-09-13T13_26_40.XP.034..HDF.mseed") = none := by
  decide +kernel

theorem all_done {γ : Type} {js : List (Proc γ)} (h : (js.all fun j => j.todo.isEmpty) = true) : ∀ j ∈ js, j.todo = [] := by
  simpa using h

theorem Started.reid {γ : Type} {j : Proc γ} (h : Started j) (i : List Nat) : Started { j with id := i } := h

/-- **C46 is violated on a first run.** Two processes start when the output folders do not exist. Both find `gps` missing;
the second `makedirs` fails, which ends that conversion. Its files are never written, although on its own it would be
complete, and in another interleaving it is. -/
theorem C46_violated_folders : ∃ (js : List (Proc Nat)) (s s' : List Nat) (key : Folder × List Nat) (j : Proc Nat),
    IsBatch js ∧ j ∈ js ∧ Owns j key ∧
    (∀ j ∈ (runSchedule s (js, ⟨[], []⟩)).1, j.todo = []) ∧ (∀ j ∈ (runSchedule s' (js, ⟨[], []⟩)).1, j.todo = []) ∧
    (aloneDisk j ⟨[], []⟩).get key = some [5] ∧
    (runSchedule s' (js, ⟨[], []⟩)).2.get key = some [5] ∧ (runSchedule s (js, ⟨[], []⟩)).2.get key = none := by
  refine ⟨[procA, procB], [0, 1, 1] ++ List.replicate 12 0 ++ List.replicate 12 1,
    List.replicate 13 0 ++ List.replicate 12 1, (.converted, bytes "2020-09-13T13_26_40.XP.012..HDF.mseed"), procA,
    demo_batch, by simp, ⟨160000360000, by unfold Datable; decide +kernel, by decide +kernel⟩, ?_, ?_, ?_, ?_, ?_⟩
  · exact all_done (by decide +kernel)
  · exact all_done (by decide +kernel)
  · decide +kernel
  · decide +kernel
  · decide +kernel

/-- Serial number 034 with the codes of 012. -/
def procC : Proc Nat := { procB with id := bytes "XP.012..HDF" }

theorem procC_started : Started procC := (demo_batch.1 procB (by simp)).1.reid _

/-- **C46 needs different identifiers.** A codes file may give two serial numbers the same network, station and location;
then the last to write wins, and the result depends on the schedule. -/
theorem C46_violated_same_codes : ∃ (i j : Proc Nat) (d : Disk Nat) (s s' : List Nat) (key : Folder × List Nat),
    Started i ∧ Started j ∧ i.sn ≠ j.sn ∧ i.id = j.id ∧ (∀ k, k ∈ d.dirs) ∧
    (∀ p ∈ (runSchedule s ([i, j], d)).1, p.todo = []) ∧ (∀ p ∈ (runSchedule s' ([i, j], d)).1, p.todo = []) ∧
    (runSchedule s ([i, j], d)).2.get key = some [8] ∧ (runSchedule s' ([i, j], d)).2.get key = some [3] := by
  have h1 : ((runSchedule (List.replicate 10 0 ++ List.replicate 10 1) ([procA, procC],
      ⟨[.gps, .metadata, .converted], []⟩)).1.all fun j => j.todo.isEmpty) = true := by decide +kernel
  have h2 : ((runSchedule (List.replicate 10 1 ++ List.replicate 10 0) ([procA, procC],
      ⟨[.gps, .metadata, .converted], []⟩)).1.all fun j => j.todo.isEmpty) = true := by decide +kernel
  refine ⟨procA, procC, ⟨[.gps, .metadata, .converted], []⟩,
    List.replicate 10 0 ++ List.replicate 10 1, List.replicate 10 1 ++ List.replicate 10 0,
    (.converted, bytes "2020-09-13T12_26_40.XP.012..HDF.mseed"), (demo_batch.1 procA (by simp)).1,
    procC_started, by decide +kernel, rfl, ?_,
    all_done h1, all_done h2, by decide +kernel, by decide +kernel⟩
  intro k; cases k <;> simp

end Gemlog
