import Verif.Model.GemCatRun
import Verif.Props.GemCatDir
import Verif.Props.Single

/-!
# C98, C99: merging raw files, on the disk and from the command line
-/

namespace Gemlog

/-! ## What a merge depends on -/

theorem put_same (d : Folders) (p : List Nat × List Nat) (c : List Nat) : d.put p c p = some c := by simp [Folders.put]

theorem put_other (d : Folders) {p q : List Nat × List Nat} (c : List Nat) (h : q ≠ p) : d.put p c q = d q := by simp [Folders.put, h]

theorem apply_other (d : Folders) (op : CatOp) {q : List Nat × List Nat} (h : q ≠ op.path) : op.apply d q = d q := by
  cases op with
  | copy p c => exact put_other d c h
  | append p t => exact put_other d _ h

/-- An action of the loop changes a file of the output folder. -/
theorem catFile_path {env : CatEnv} {all : Bool} {inD outD sn : List Nat} {d : Folders} {v v' : CatVars} {f : List Nat} {op : CatOp}
    (h : catFile env all inD outD sn d v f = .ok (v', some op)) : ∃ n, op.path = (outD, n) ∧ v'.out = some n ∧
      ((∃ c, op = .copy (outD, n) c) ∨ ((∃ t, op = .append (outD, n) t) ∧ v.out = some n)) := by
  have hc : ∀ name (w : CatVars), w.out = some name → (copyOp d inD outD f name).map (fun op => (w, some op)) = .ok (v', some op) →
      ∃ n, op.path = (outD, n) ∧ v'.out = some n ∧ ((∃ c, op = .copy (outD, n) c) ∨ ((∃ t, op = .append (outD, n) t) ∧ v.out = some n)) := by
    intro name w hw h
    unfold copyOp at h
    split_ifs at h
    · simp [Except.map] at h
    · simp only [Except.map, Except.ok.injEq, Prod.mk.injEq, Option.some.injEq] at h
      rw [← h.1, ← h.2]
      exact ⟨name, rfl, hw, .inl ⟨_, rfl⟩⟩
  have ha : ∀ o (w : CatVars), w.out = some o → v.out = some o → (appendOp env d inD outD f v.prev o).map (fun op => (w, some op)) = .ok (v', some op) →
      ∃ n, op.path = (outD, n) ∧ v'.out = some n ∧ ((∃ c, op = .copy (outD, n) c) ∨ ((∃ t, op = .append (outD, n) t) ∧ v.out = some n)) := by
    intro o w hw ho h
    unfold appendOp at h
    cases ht : appendText env (d.content inD f) (d.content inD v.prev) with
    | error x => rw [ht] at h; simp [Except.map] at h
    | ok t =>
      rw [ht] at h
      simp only [Except.map, Except.ok.injEq, Prod.mk.injEq, Option.some.injEq] at h
      rw [← h.1, ← h.2]
      exact ⟨o, rfl, hw, .inr ⟨⟨_, rfl⟩, ho⟩⟩
  unfold catFile at h
  cases hv : v.out with
  | none =>
    rw [hv] at h
    by_cases hall : all = true
    · rw [if_pos hall] at h
      exact hv ▸ hc _ _ rfl h
    · rw [if_neg hall] at h
      cases hg : hasGps (d.content inD f) with
      | none => rw [hg] at h; simp at h
      | some g =>
        rw [hg] at h
        simp only at h
        split_ifs at h
        · simp at h
        · exact hv ▸ hc _ _ rfl h
  | some o =>
    rw [hv] at h
    by_cases hall : all = true
    · rw [if_pos hall] at h
      exact hv ▸ ha _ _ rfl hv h
    · rw [if_neg hall] at h
      cases hg : hasGps (d.content inD f) with
      | none => rw [hg] at h; simp at h
      | some g =>
        rw [hg] at h
        simp only at h
        split_ifs at h
        · exact hv ▸ hc _ _ rfl h
        · exact hv ▸ ha _ _ rfl hv h

/-- The loop depends on the input folder only. -/
theorem catFile_congr (env : CatEnv) (all : Bool) (inD outD sn : List Nat) {d d' : Folders} (h : ∀ n, d (inD, n) = d' (inD, n)) (v : CatVars)
    (f : List Nat) : catFile env all inD outD sn d v f = catFile env all inD outD sn d' v f := by
  have hc : ∀ n, d.content inD n = d'.content inD n := fun n => by unfold Folders.content; rw [h]
  unfold catFile copyOp appendOp
  simp only [hc]

theorem catFiles_congr (env : CatEnv) (all : Bool) (inD outD sn : List Nat) (hne : inD ≠ outD) : ∀ (fs : List (List Nat)) (d d' : Folders) (v : CatVars),
    (∀ n, d (inD, n) = d' (inD, n)) → catFiles env all inD outD sn fs d v = catFiles env all inD outD sn fs d' v := by
  intro fs
  induction fs with
  | nil => intro d d' v _; rfl
  | cons f fs ih =>
    intro d d' v h
    rw [catFiles, catFiles, catFile_congr env all inD outD sn h v f]
    cases hf : catFile env all inD outD sn d' v f with
    | error x => rfl
    | ok r =>
      obtain ⟨v', op⟩ := r
      cases op with
      | none => exact ih d d' v' h
      | some op =>
        simp only
        obtain ⟨n, hn, _⟩ := catFile_path hf
        rw [ih (op.apply d) (op.apply d') v']
        intro m
        have hm : (inD, m) ≠ op.path := by rw [hn]; intro e; simp only [Prod.mk.injEq] at e; exact hne e.1
        rw [apply_other _ _ hm, apply_other _ _ hm, h m]

theorem gemCatRun_congr (env : CatEnv) (all : Bool) (inD outD ext : List Nat) (names : List (List Nat)) (hne : inD ≠ outD) {d d' : Folders}
    (h : ∀ n, d (inD, n) = d' (inD, n)) : gemCatRun env all inD outD ext names d = gemCatRun env all inD outD ext names d' := by
  have hc : ∀ n, d.content inD n = d'.content inD n := fun n => by unfold Folders.content; rw [h]
  have hr : d.raw inD names = d'.raw inD names := by unfold Folders.raw; simp only [hc]
  unfold gemCatRun
  rw [hr]
  cases (sortRaw ((d'.raw inD names).filter fun e => catName ext e.name)).map RawFile.name with
  | nil => rfl
  | cons f fs =>
    simp only [hc]
    cases env.readSN (d'.content inD f) with
    | none => rfl
    | some sn => exact catFiles_congr env all inD outD sn hne _ _ _ _ h

/-! ## The shape of the actions -/

/-- Every file is first copied, then appended to; `cur` is the file that may be appended to. -/
def Begun (cur : Option (List Nat × List Nat)) : List CatOp → Prop
  | [] => True
  | .copy p _ :: l => Begun (some p) l
  | .append p _ :: l => cur = some p ∧ Begun cur l

/-- The files that are copied to. -/
def copied : List CatOp → List (List Nat × List Nat)
  | [] => []
  | .copy p _ :: l => p :: copied l
  | .append _ _ :: l => copied l

theorem catFiles_begun (env : CatEnv) (all : Bool) (inD outD sn : List Nat) : ∀ (fs : List (List Nat)) (d : Folders) (v : CatVars),
    Begun (v.out.map fun n => (outD, n)) (catFiles env all inD outD sn fs d v).1 ∧
      ∀ op ∈ (catFiles env all inD outD sn fs d v).1, op.path.1 = outD := by
  intro fs
  induction fs with
  | nil => intro d v; exact ⟨trivial, by simp [catFiles]⟩
  | cons f fs ih =>
    intro d v
    rw [catFiles]
    cases hf : catFile env all inD outD sn d v f with
    | error x => exact ⟨trivial, by simp⟩
    | ok r =>
      obtain ⟨v', op⟩ := r
      cases op with
      | none =>
        simp only
        have hv : v'.out = v.out := by
          unfold catFile at hf
          have no : ∀ {x : Except Exc CatOp} {w : CatVars}, x.map (fun op => (w, some op)) ≠ .ok (v', none) := by
            intro x w; cases x <;> simp [Except.map]
          split_ifs at hf
          · split at hf
            · exact absurd hf no
            · exact absurd hf no
          · split at hf
            · simp at hf
            · split at hf
              · split_ifs at hf
                · simp only [Except.ok.injEq, Prod.mk.injEq, and_true] at hf
                  rw [← hf, ‹v.out = none›]
                · exact absurd hf no
              · split_ifs at hf
                · exact absurd hf no
                · exact absurd hf no
        rw [← hv]
        exact ih d v'
      | some op =>
        simp only
        obtain ⟨n, hn, ho, hk⟩ := catFile_path hf
        obtain ⟨i1, i2⟩ := ih (op.apply d) v'
        rw [ho] at i1
        refine ⟨?_, ?_⟩
        · rcases hk with ⟨c, rfl⟩ | ⟨⟨t, rfl⟩, hv⟩
          · exact i1
          · rw [hv]; exact ⟨rfl, i1⟩
        · intro x hx
          rcases List.mem_cons.mp hx with rfl | hx
          · rw [hn]
          · exact i2 x hx

theorem gemCatRun_begun (env : CatEnv) (all : Bool) (inD outD ext : List Nat) (names : List (List Nat)) (d : Folders) :
    Begun none (gemCatRun env all inD outD ext names d).1 ∧ ∀ op ∈ (gemCatRun env all inD outD ext names d).1, op.path.1 = outD := by
  unfold gemCatRun
  cases (sortRaw ((d.raw inD names).filter fun e => catName ext e.name)).map RawFile.name with
  | nil => exact ⟨trivial, by simp⟩
  | cons f fs =>
    simp only
    cases env.readSN (d.content inD f) with
    | none => exact ⟨trivial, by simp⟩
    | some sn => exact catFiles_begun env all inD outD sn (f :: fs) d {}

theorem applyOps_cons (d : Folders) (op : CatOp) (l : List CatOp) : applyOps d (op :: l) = applyOps (op.apply d) l := rfl

theorem applyOps_other : ∀ (ops : List CatOp) (d : Folders) (q : List Nat × List Nat), (∀ op ∈ ops, op.path ≠ q) → applyOps d ops q = d q := by
  intro ops
  induction ops with
  | nil => intro d q _; rfl
  | cons op l ih =>
    intro d q h
    rw [applyOps_cons, ih _ _ fun x hx => h x (by simp [hx]), apply_other d op (h op (by simp)).symm]

/-- What is there afterwards does not depend on what was in the files that are copied to. -/
theorem applyOps_congr : ∀ (ops : List CatOp) (cur : Option (List Nat × List Nat)) (d d' : Folders), Begun cur ops → (∀ p, cur = some p → d p = d' p) →
    ∀ q, (d q = d' q ∨ q ∈ copied ops) → applyOps d ops q = applyOps d' ops q := by
  intro ops
  induction ops with
  | nil =>
    intro cur d d' _ _ q hq
    rcases hq with h | h
    · exact h
    · simp [copied] at h
  | cons op l ih =>
    intro cur d d' hb hcur q hq
    rw [applyOps_cons, applyOps_cons]
    cases op with
    | copy p c =>
      refine ih (some p) _ _ hb ?_ q ?_
      · intro p' hp'
        cases hp'
        simp only [CatOp.apply]
        rw [put_same, put_same]
      · by_cases e : q = p
        · left; rw [e]; simp only [CatOp.apply]; rw [put_same, put_same]
        · rcases hq with h | h
          · left; simp only [CatOp.apply]; rw [put_other _ _ e, put_other _ _ e, h]
          · right
            rw [copied, List.mem_cons] at h
            exact h.resolve_left e
    | append p t =>
      obtain ⟨h1, h2⟩ := hb
      have hp : CatOp.apply d (.append p t) p = CatOp.apply d' (.append p t) p := by
        simp only [CatOp.apply]
        rw [put_same, put_same, hcur p h1]
      refine ih cur _ _ h2 ?_ q ?_
      · intro p' hp'
        rw [h1] at hp'
        cases hp'
        exact hp
      · by_cases e : q = p
        · left; rw [e]; exact hp
        · rcases hq with h | h
          · left; simp only [CatOp.apply]; rw [put_other _ _ e, put_other _ _ e, h]
          · right; exact h

theorem begun_paths : ∀ (ops : List CatOp) (cur : Option (List Nat × List Nat)), Begun cur ops → ∀ a op b, ops = a ++ op :: b →
    some op.path = cur ∨ op.path ∈ copied ops := by
  intro ops
  induction ops with
  | nil => intro cur _ a op b h; simp at h
  | cons x l ih =>
    intro cur hb a op b h
    cases a with
    | nil =>
      simp only [List.nil_append, List.cons.injEq] at h
      rw [← h.1]
      cases x with
      | copy p c => right; simp [CatOp.path, copied]
      | append p t => left; exact hb.1.symm
    | cons y a =>
      simp only [List.cons_append, List.cons.injEq] at h
      cases x with
      | copy p c =>
        right
        rcases ih (some p) hb a op b h.2 with h1 | h1
        · simp only [Option.some.injEq] at h1; rw [h1]; simp [copied]
        · simp [copied, h1]
      | append p t => exact ih cur hb.2 a op b h.2

/-! ## C98 -/

/-- The disk when a merge is interrupted: after some actions, in the middle of the next (only its first `n` bytes are written). -/
def InterruptedAt (d : Folders) (ops : List CatOp) (d' : Folders) : Prop :=
  ∃ a op b n, ops = a ++ op :: b ∧ d' = applyOps d (a ++ [op.cut n])

/-- **C98, interruption.** Whenever and wherever a merge into another folder is interrupted (killed, disk full, computer off) or fails: running it again, on
what is then on the disk, ends in the same way as without the interruption, and leaves every file as if there had been no interruption. -/
theorem C98_interrupted (env : CatEnv) (all : Bool) (inD outD ext : List Nat) (names : List (List Nat)) (hne : inD ≠ outD) (d d' : Folders)
    (h : InterruptedAt d (gemCatRun env all inD outD ext names d).1 d') :
    (gemCatRun env all inD outD ext names d').2 = (gemCatRun env all inD outD ext names d).2 ∧
    applyOps d' (gemCatRun env all inD outD ext names d').1 = applyOps d (gemCatRun env all inD outD ext names d).1 := by
  obtain ⟨hb, hp⟩ := gemCatRun_begun env all inD outD ext names d
  obtain ⟨a, op, b, n, he, hd'⟩ := h
  have hcut : (op.cut n).path = op.path := by cases op <;> rfl
  have hmem : ∀ x ∈ a ++ [op.cut n], ∃ y ∈ (gemCatRun env all inD outD ext names d).1, y.path = x.path := by
    intro x hx
    rcases List.mem_append.mp hx with hx | hx
    · exact ⟨x, by rw [he]; simp [hx], rfl⟩
    · rw [List.mem_singleton.mp hx, hcut]; exact ⟨op, by rw [he]; simp, rfl⟩
  have hin : ∀ m, d' (inD, m) = d (inD, m) := by
    intro m
    rw [hd']
    apply applyOps_other
    intro x hx e
    obtain ⟨y, hy, hyx⟩ := hmem x hx
    have := hp y hy
    rw [hyx, e] at this
    exact hne this
  rw [gemCatRun_congr env all inD outD ext names hne hin]
  refine ⟨rfl, ?_⟩
  funext q
  refine applyOps_congr _ none d' d hb (by simp) q ?_
  by_cases hq : q ∈ copied (gemCatRun env all inD outD ext names d).1
  · exact .inr hq
  · left
    rw [hd']
    apply applyOps_other
    intro x hx e
    obtain ⟨y, hy, hyx⟩ := hmem x hx
    obtain ⟨s, t, hst⟩ := List.append_of_mem hy
    rcases begun_paths _ none hb s y t hst with h1 | h1
    · simp at h1
    · rw [hyx, e] at h1; exact hq h1

/-- **C98, repetition.** A merge into another folder that has been done may be done again: nothing changes. -/
theorem C98_again (env : CatEnv) (all : Bool) (inD outD ext : List Nat) (names : List (List Nat)) (hne : inD ≠ outD) (d : Folders) :
    (gemCatRun env all inD outD ext names (applyOps d (gemCatRun env all inD outD ext names d).1)).2 = (gemCatRun env all inD outD ext names d).2 ∧
    applyOps (applyOps d (gemCatRun env all inD outD ext names d).1)
      (gemCatRun env all inD outD ext names (applyOps d (gemCatRun env all inD outD ext names d).1)).1 =
      applyOps d (gemCatRun env all inD outD ext names d).1 := by
  obtain ⟨hb, hp⟩ := gemCatRun_begun env all inD outD ext names d
  have hin : ∀ m, applyOps d (gemCatRun env all inD outD ext names d).1 (inD, m) = d (inD, m) := by
    intro m
    apply applyOps_other
    intro x hx e
    have := hp x hx
    rw [e] at this
    exact hne this
  rw [gemCatRun_congr env all inD outD ext names hne hin]
  refine ⟨rfl, ?_⟩
  funext q
  refine applyOps_congr _ none _ d hb (by simp) q ?_
  by_cases hq : q ∈ copied (gemCatRun env all inD outD ext names d).1
  · exact .inr hq
  · left
    apply applyOps_other
    intro x hx e
    obtain ⟨s, t, hst⟩ := List.append_of_mem hx
    rcases begun_paths _ none hb s x t hst with h1 | h1
    · simp at h1
    · rw [e] at h1; exact hq h1

/-- **C98, other folders.** No merge, finished or interrupted, changes a file outside its output folder. -/
theorem C98_elsewhere (env : CatEnv) (all : Bool) (inD outD ext : List Nat) (names : List (List Nat)) (d : Folders) (q : List Nat × List Nat)
    (hq : q.1 ≠ outD) :
    applyOps d (gemCatRun env all inD outD ext names d).1 q = d q ∧
    ∀ d', InterruptedAt d (gemCatRun env all inD outD ext names d).1 d' → d' q = d q := by
  obtain ⟨_, hp⟩ := gemCatRun_begun env all inD outD ext names d
  refine ⟨applyOps_other _ _ _ fun op hop e => hq (by rw [← e]; exact hp op hop), ?_⟩
  rintro d' ⟨a, op, b, n, he, rfl⟩
  apply applyOps_other
  intro x hx e
  have hcut : (op.cut n).path = op.path := by cases op <;> rfl
  rcases List.mem_append.mp hx with hx | hx
  · exact hq (by rw [← e]; exact hp x (by rw [he]; simp [hx]))
  · rw [List.mem_singleton.mp hx, hcut] at e
    exact hq (by rw [← e]; exact hp op (by rw [he]; simp))

end Gemlog
