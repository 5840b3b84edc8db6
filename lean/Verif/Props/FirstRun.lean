import Verif.Props.BatchTables
import Verif.Props.Cli

/-!
# C46: the first run of a batch without output folders; C59: numbers of processes below one
-/

namespace Gemlog

/-! ## C46 -/

/-- Whatever the state of a batch, it can be brought to its end. -/
theorem ends_at {γ : Type} : ∀ (n : Nat) (l : List (Proc γ)) (p : Proc γ) (r : List (Proc γ)) (d : Disk γ), left p ≤ n →
    ∃ p' d', runSchedule (List.replicate n l.length) (l ++ p :: r, d) = (l ++ p' :: r, d') ∧ p'.todo = []
  | 0, l, p, r, d, h => by
    refine ⟨p, d, rfl, ?_⟩
    unfold left at h
    split at h
    · omega
    · exact List.length_eq_zero_iff.mp (by omega)
  | n + 1, l, p, r, d, h => by
    have := left_step p d
    obtain ⟨p', d', h1, h2⟩ := ends_at n l (stepProc p d).1 r (stepProc p d).2 (by omega)
    refine ⟨p', d', ?_, h2⟩
    rw [← h1]
    show runSchedule (List.replicate n l.length) (stepAt (l ++ p :: r, d) l.length) = _
    congr 1
    unfold stepAt
    simp

theorem ends_from {γ : Type} : ∀ (r l : List (Proc γ)) (d : Disk γ), (∀ p ∈ l, p.todo = []) →
    ∃ sched, ∀ p ∈ (runSchedule sched (l ++ r, d)).1, p.todo = []
  | [], l, d, h => ⟨[], by simpa [runSchedule] using h⟩
  | p :: r, l, d, h => by
    obtain ⟨p', d', h1, h2⟩ := ends_at (left p) l p r d (Nat.le_refl _)
    obtain ⟨sched, hs⟩ := ends_from r (l ++ [p']) d' (by
      intro q hq
      rcases List.mem_append.mp hq with hq | hq
      · exact h q hq
      · rw [List.mem_singleton.mp hq]; exact h2)
    refine ⟨List.replicate (left p) l.length ++ sched, ?_⟩
    rw [show runSchedule (List.replicate (left p) l.length ++ sched) (l ++ p :: r, d) =
      runSchedule sched (runSchedule (List.replicate (left p) l.length) (l ++ p :: r, d)) from List.foldl_append, h1]
    simpa using hs

/-- A conversion that has ended writes nothing, and the others do not write its files. -/
theorem ended_untouched {γ : Type} {js : List (Proc γ)} {d : Disk γ} (hp : js.Pairwise Apart) {b : Nat} {j : Proc γ} (hj : js[b]? = some j) :
    ∀ (sched : List Nat) (s : List (Proc γ) × Disk γ), AllOnWay True js d s → (∀ j' ∈ s.1[b]?, j'.todo = []) →
    ∀ key, Owns j key → (runSchedule sched s).2.get key = s.2.get key
  | [], _, _, _, _, _ => rfl
  | k :: sched, s, h, he, key, hk => by
    show (runSchedule sched (stepAt s k)).2.get key = _
    have hst : (∀ j' ∈ (stepAt s k).1[b]?, j'.todo = []) ∧ (stepAt s k).2.get key = s.2.get key := by
      unfold stepAt
      cases hkk : s.1[k]? with
      | none => exact ⟨he, rfl⟩
      | some j' =>
        simp only
        by_cases hkb : k = b
        · subst hkb
          have hj' := he j' hkk
          have : stepProc j' s.2 = (j', s.2) := by unfold stepProc; rw [hj']
          rw [this]
          refine ⟨?_, rfl⟩
          intro x hx
          rw [List.getElem?_set] at hx
          simp only [if_true] at hx
          split at hx
          · cases hx; exact hj'
          · cases hx
        · refine ⟨?_, ?_⟩
          · intro x hx
            rw [List.getElem?_set_ne hkb] at hx
            exact he x hx
          · obtain ⟨i, hi, ho⟩ := forall₂_get h hkk
            refine step_frame ho.ok _ _ ?_
            rw [owns_congr ho.sn ho.id ho.fmt]
            obtain ⟨f1, f2, f3, f4⟩ := pairwise_get hp (fun _ _ => Apart.symm) (fun e => hkb e.symm) hj hi
            exact owns_disjoint f1 f2 f3 f4 key hk
    rw [ended_untouched hp hj sched _ (h.stepAt hp (fun _ _ _ _ _ _ => trivial) k) hst.1 key hk, hst.2]

theorem Started.begins {γ : Type} {j : Proc γ} (h : Started j) (hf : j.todo ≠ [.fail]) : ∃ l, j.todo = .isdir .gps :: l := by
  obtain ⟨_, _, h | ⟨m, g, rest, h, _⟩⟩ := h
  · exact absurd h hf
  · exact ⟨_, h⟩

/-- On its own a conversion that gets past the raw files leaves something. -/
theorem alone_leaves {γ : Type} {j : Proc γ} (h : Started j) (h3 : j.sn.length = 3) (hf : j.todo ≠ [.fail]) (d : Disk γ) :
    ∃ key, Owns j key ∧ d.get key = none ∧ (aloneDisk j d).get key ≠ none := by
  obtain ⟨h1, h2, h' | ⟨m, g, rest, ht, hr⟩⟩ := id h
  · exact absurd h' hf
  · have hb : IsBatch [j] := ⟨by simpa using ⟨h, h3⟩, List.pairwise_singleton ..⟩
    obtain ⟨d', hd'⟩ : ∃ d' : Disk γ, d' = ⟨[.gps, .metadata, .converted], d.files⟩ := ⟨_, rfl⟩
    have hdirs : ∀ k, k ∈ d'.dirs := by rw [hd']; intro k; cases k <;> simp
    obtain ⟨j', hj', hend⟩ := C46_alone_ends j d'
    obtain ⟨_, b, _, hb', _, hg, _⟩ := C46_summaries [j] d' hb hdirs (List.replicate (2 * j.todo.length) 0)
      (by rw [hj']; simpa using hend) j (by simp) m g rest ht hr
    have hown : Owns j (.gps, summaryName .gps j.sn b) := ⟨b, rfl⟩
    refine ⟨_, hown, ?_, ?_⟩
    · have := hb'.1
      rw [hd'] at this
      exact this
    · rw [alone_effect h d _ hown, effect_local j.todo j d d' rfl h.ok.1 (by rw [hd']; intro _ _; rfl) _ hown, ← alone_effect h d' _ hown]
      show (runSchedule _ _).2.get _ ≠ none
      rw [hg]
      simp

/-- **C46 is violated by every batch that starts without a GPS folder.** For any two of its conversions that get past the raw files, the actions can interleave such that the second
leaves nothing when all have ended, although it leaves some file if it is alone: both find the folder missing, the first one makes it, and the second one gives up because it cannot make it. -/
theorem C46_violated_first_run {γ : Type} (js : List (Proc γ)) (hb : IsBatch js) (d : Disk γ) (hd : Folder.gps ∉ d.dirs) (a b : Nat) (hab : a ≠ b) (i j : Proc γ)
    (hi : js[a]? = some i) (hj : js[b]? = some j) (hfi : i.todo ≠ [.fail]) (hfj : j.todo ≠ [.fail]) :
    (∃ sched, (∀ p ∈ (runSchedule sched (js, d)).1, p.todo = []) ∧ ∀ key, Owns j key → (runSchedule sched (js, d)).2.get key = d.get key) ∧
      ∃ key, Owns j key ∧ d.get key = none ∧ (aloneDisk j d).get key ≠ none := by
  have hsj := hb.1 j (List.mem_of_getElem? hj)
  refine ⟨?_, alone_leaves hsj.1 hsj.2 hfj d⟩
  obtain ⟨li, hli⟩ := (hb.1 i (List.mem_of_getElem? hi)).1.begins hfi
  obtain ⟨lj, hlj⟩ := hsj.1.begins hfj
  have hbl : b < js.length := (List.getElem?_eq_some_iff.mp hj).1
  have hal : a < js.length := (List.getElem?_eq_some_iff.mp hi).1
  obtain ⟨d', hd'⟩ : ∃ d' : Disk γ, d' = { d with dirs := .gps :: d.dirs } := ⟨_, rfl⟩
  have s1 : stepAt (js, d) b = (js.set b { j with todo := .mkdir .gps :: lj }, d) := by
    unfold stepAt
    simp only [hj]
    unfold stepProc
    rw [hlj]
    simp only [if_neg hd]
  have s2 : stepAt (js.set b { j with todo := .mkdir .gps :: lj }, d) a =
      ((js.set b { j with todo := .mkdir .gps :: lj }).set a { i with todo := .mkdir .gps :: li }, d) := by
    unfold stepAt
    simp only [List.getElem?_set_ne hab.symm, hi]
    unfold stepProc
    rw [hli]
    simp only [if_neg hd]
  have s3 : stepAt ((js.set b { j with todo := .mkdir .gps :: lj }).set a { i with todo := .mkdir .gps :: li }, d) a =
      (((js.set b { j with todo := .mkdir .gps :: lj }).set a { i with todo := .mkdir .gps :: li }).set a { i with todo := li }, d') := by
    unfold stepAt
    simp only [List.getElem?_set_self (show a < (js.set b { j with todo := Instr.mkdir .gps :: lj }).length by simpa using hal)]
    unfold stepProc
    simp only [if_neg hd, hd']
  obtain ⟨js4, hjs4, he4⟩ : ∃ js4, runSchedule [b, a, a, b] (js, d) = (js4, d') ∧ ∀ j' ∈ js4[b]?, j'.todo = [] := by
    unfold runSchedule
    simp only [List.foldl_cons, List.foldl_nil, s1, s2, s3]
    unfold stepAt
    simp only [List.getElem?_set_ne hab, List.getElem?_set_self hbl]
    unfold stepProc
    simp only [hd', List.mem_cons, true_or, if_true]
    refine ⟨_, rfl, ?_⟩
    intro j' hj'
    rw [List.getElem?_set_self (by simpa using hbl)] at hj'
    cases hj'
    rfl
  obtain ⟨sched, hs⟩ := ends_from js4 [] d' (by simp)
  refine ⟨[b, a, a, b] ++ sched, ?_, ?_⟩
  · rw [show runSchedule ([b, a, a, b] ++ sched) (js, d) = runSchedule sched (runSchedule [b, a, a, b] (js, d)) from List.foldl_append, hjs4]
    exact hs
  · intro key hk
    have hway := runSchedule_onWay js d (fun j hj => ⟨(hb.1 j hj).1.ok.1, (hb.1 j hj).1.ok.2.1⟩) hb.apart [b, a, a, b]
    rw [show runSchedule ([b, a, a, b] ++ sched) (js, d) = runSchedule sched (runSchedule [b, a, a, b] (js, d)) from List.foldl_append,
      ended_untouched hb.apart hj sched _ hway (by rw [hjs4]; exact he4) key hk, hjs4, hd']
    rfl

example := C46_violated_first_run [procA, procB] demo_batch ⟨[], []⟩ (by simp) 0 1 (by decide) procA procB rfl rfl (by decide +kernel) (by decide +kernel)

/-! ## C59 -/

/-- **C59 is violated by every number of processes below one**: an uncaught exception, nothing is converted. -/
theorem C59_violated_few_processes (ws : List Word) (hv : ∀ w ∈ ws, w.Valid) (hh : Word.flag 104 ∉ ws) (env : CliEnv)
    (files : List (List Nat)) (hdir : env.listdir ((typedValue ws 105).getD (bytes "raw")) = some files)
    (hcodes : typedValue ws 99 = none) (ht : Word.flag 116 ∉ ws) (hp : typedProcesses ws ≤ 0) :
    gemconvert env (ws.flatMap Word.typed) = .crash := by
  obtain ⟨o, ho, h1, h2, h3, h4, h5, h6, h7, h8, h9⟩ := typed_settings ws hv hh
  have hws : ws ≠ [] := by
    rintro rfl
    revert hp
    decide +kernel
  have hne' : ¬ (o.sns = none ∧ files = [] ∧ ws.map Word.meant = []) := by
    rintro ⟨_, _, hw⟩
    exact hws (List.map_eq_nil_iff.mp hw)
  unfold gemconvert
  rw [C59_short_forms ws hv]
  simp only [ho]
  rw [h1, hdir]
  simp only [if_neg hne', h4, hcodes]
  unfold launch
  rw [if_neg (fun h => ht (h5.mp h)), if_pos (by rw [h9]; unfold typedProcesses at hp; omega)]

example := C59_violated_few_processes [.value 112 (bytes "0"), .value 105 (bytes "a")]
  (by
    intro w hw
    simp only [List.mem_cons, List.not_mem_nil, or_false] at hw
    rcases hw with rfl | rfl
    · show 112 ∈ bytes "isxcoflp"; decide +kernel
    · show 105 ∈ bytes "isxcoflp"; decide +kernel)
  (by simp) ⟨fun _ => some [bytes "FILE0001.034"], fun _ => none⟩ [bytes "FILE0001.034"] (by decide +kernel) (by decide +kernel) (by simp)
  (by decide +kernel)

end Gemlog
