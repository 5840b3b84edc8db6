import Verif.Props.GemCatRun
import Verif.Props.Names

/-!
# C98, C99: merging raw files, from the command line to the files
-/

namespace Gemlog

/-! ## The files written are those of `gemCat` -/

/-- Write several files into a folder. -/
def putAll (d : Folders) (outD : List Nat) (outs : List (List Nat × List Nat)) : Folders :=
  outs.foldl (fun d o => d.put (outD, o.1) o.2) d

theorem putAll_snoc (d : Folders) (outD : List Nat) (outs : List (List Nat × List Nat)) (o : List Nat × List Nat) :
    putAll d outD (outs ++ [o]) = (putAll d outD outs).put (outD, o.1) o.2 := by
  unfold putAll
  rw [List.foldl_append]
  rfl

theorem put_put (d : Folders) (p : List Nat × List Nat) (a b : List Nat) : (d.put p a).put p b = d.put p b := by
  funext q
  unfold Folders.put
  split_ifs <;> rfl

theorem addToLast_snoc (t : List Nat) (o : List Nat × List Nat) : ∀ outs : List (List Nat × List Nat),
    addToLast t (outs ++ [o]) = outs ++ [(o.1, o.2 ++ t)]
  | [] => rfl
  | [a] => rfl
  | a :: b :: l => by
    rw [List.cons_append, List.cons_append, addToLast]
    · rw [← List.cons_append, addToLast_snoc t o (b :: l)]; rfl
    · simp

/-- The variables describe the files written so far. -/
structure CatDescribes (inD outD : List Nat) (all : Bool) (d0 : Folders) (st : CatState) (v : CatVars) (d : Folders) : Prop where
  disk : d = putAll d0 outD st.outs
  out : v.out = st.outs.getLast?.map Prod.fst
  counter : all = false → v.counter = st.outs.length
  prev : st.outs ≠ [] → st.prev = d0.content inD v.prev
  prevGps : st.outs ≠ [] → v.prevGps = st.prevGps

theorem content_putAll {inD outD : List Nat} (hne : inD ≠ outD) (d : Folders) (outs : List (List Nat × List Nat)) (f : List Nat) :
    (putAll d outD outs).content inD f = d.content inD f := by
  have : putAll d outD outs (inD, f) = d (inD, f) := by
    unfold putAll
    induction outs generalizing d with
    | nil => rfl
    | cons o l ih =>
      rw [List.foldl_cons, ih]
      exact put_other d _ (by intro e; simp only [Prod.mk.injEq] at e; exact hne e.1)
  unfold Folders.content
  rw [this]

theorem catFile_step {env : CatEnv} {all : Bool} {inD outD sn : List Nat} (hne : inD ≠ outD) {d0 d : Folders} {st : CatState} {v : CatVars}
    (h : CatDescribes inD outD all d0 st v d) (f : List Nat) :
    (∀ x, catStep env all sn st (d0.content inD f) = .error x → catFile env all inD outD sn d v f = .error x) ∧
    (∀ st', catStep env all sn st (d0.content inD f) = .ok st' → ∃ v' op, catFile env all inD outD sn d v f = .ok (v', op) ∧
      CatDescribes inD outD all d0 st' v' (op.elim d (CatOp.apply d))) := by
  have hcf : ∀ n, d.content inD n = d0.content inD n := fun n => by rw [h.disk]; exact content_putAll hne d0 _ n
  have hcopy : ∀ name, copyOp d inD outD f name = .ok (.copy (outD, name) (d0.content inD f)) := by
    intro name
    unfold copyOp
    rw [if_neg (by intro e; simp only [Prod.mk.injEq] at e; exact hne e.1), hcf]
  rcases List.eq_nil_or_concat st.outs with h0 | ⟨os, o, h0⟩
  · have hv : v.out = none := by rw [h.out, h0]; rfl
    have hd : d = d0 := by rw [h.disk, h0]; rfl
    unfold catStep catFile
    rw [h0, hv]
    by_cases hall : all = true
    · simp only [hall, if_true, hcopy, Except.map]
      refine ⟨by simp, ?_⟩
      rintro st' ⟨⟩
      refine ⟨_, _, rfl, ?_⟩
      refine ⟨?_, rfl, by simp, fun _ => by simp, fun _ => rfl⟩
      simp only [Option.elim, CatOp.apply, hd]
      rfl
    · simp only [Bool.not_eq_true] at hall
      subst hall
      simp only [hcf, hcopy, Except.map, Bool.false_eq_true, if_false]
      have hcnt := h.counter rfl
      rw [h0] at hcnt
      cases hg : hasGps (d0.content inD f) with
      | none => exact ⟨by simp, by simp⟩
      | some g =>
        cases g with
        | false =>
          simp only [and_self, if_true]
          refine ⟨by simp, ?_⟩
          rintro st' ⟨⟩
          refine ⟨_, _, rfl, ?_⟩
          exact ⟨by simp [hd, putAll], rfl, fun _ => hcnt, fun e => absurd rfl e, fun e => absurd rfl e⟩
        | true =>
          simp only [Bool.true_eq_false, false_and, if_false, if_true]
          refine ⟨by simp, ?_⟩
          rintro st' ⟨⟩
          have hc0 : v.counter = 0 := hcnt
          rw [hc0]
          refine ⟨_, _, rfl, ?_⟩
          refine ⟨?_, rfl, fun _ => by simp, fun _ => by simp, fun _ => rfl⟩
          simp only [Option.elim, CatOp.apply, hd]
          rfl
  · rw [List.concat_eq_append] at h0
    have hne0 : st.outs ≠ [] := by rw [h0]; simp
    have hv : v.out = some o.1 := by rw [h.out, h0]; simp
    have hprev := h.prev hne0
    have happ : ∀ g : Bool, (∀ x, appendText env (d0.content inD f) st.prev = .error x →
          (appendOp env d inD outD f v.prev o.1).map (fun op => ((⟨some o.1, v.counter, f, g⟩ : CatVars), some op)) = .error x) ∧
        (∀ t, appendText env (d0.content inD f) st.prev = .ok t →
          ∃ v' op, (appendOp env d inD outD f v.prev o.1).map (fun op => ((⟨some o.1, v.counter, f, g⟩ : CatVars), some op)) = .ok (v', op) ∧
            CatDescribes inD outD all d0 ⟨addToLast t st.outs, d0.content inD f, g⟩ v' (op.elim d (CatOp.apply d))) := by
      intro g
      have e : appendText env (d.content inD f) (d.content inD v.prev) = appendText env (d0.content inD f) st.prev := by rw [hcf, hcf, ← hprev]
      constructor
      · intro x hx
        unfold appendOp
        rw [e, hx]; rfl
      · intro t ht
        refine ⟨⟨some o.1, v.counter, f, g⟩, some (.append (outD, o.1) t), ?_, ?_⟩
        · unfold appendOp
          rw [e, ht]; rfl
        · have hlast : putAll d0 outD (os ++ [o]) (outD, o.1) = some o.2 := by rw [putAll_snoc, put_same]
          refine ⟨?_, ?_, ?_, fun _ => by simp, fun _ => rfl⟩
          · simp only [Option.elim, CatOp.apply]
            rw [h.disk, h0, hlast, addToLast_snoc, putAll_snoc, putAll_snoc, put_put]
            rfl
          · simp only [h0, addToLast_snoc]; simp
          · intro ha
            rw [h.counter ha]
            simp only [h0, addToLast_snoc]; simp
    unfold catStep catFile
    rw [hv]
    by_cases hall : all = true
    · simp only [hall, if_true, if_neg hne0]
      cases ht : appendText env (d0.content inD f) st.prev with
      | error x =>
        simp only [Except.map]
        refine ⟨?_, by simp⟩
        intro y hy
        exact (happ false).1 y (by rw [ht]; simpa using hy)
      | ok t =>
        simp only [Except.map]
        refine ⟨by simp, ?_⟩
        rintro st' ⟨⟩
        rw [hall] at happ
        exact (happ false).2 t ht
    · simp only [Bool.not_eq_true] at hall
      subst hall
      simp only [hcf, hcopy, Bool.false_eq_true, if_false, hne0, and_false]
      have hpg := h.prevGps hne0
      have hcnt := h.counter rfl
      cases hg : hasGps (d0.content inD f) with
      | none => exact ⟨by simp, by simp⟩
      | some g =>
        have hap : ∀ g : Bool, (∀ x, (appendText env (d0.content inD f) st.prev).map (fun t => (⟨addToLast t st.outs, d0.content inD f, g⟩ : CatState)) = .error x →
              (appendOp env d inD outD f v.prev o.1).map (fun op => ((⟨some o.1, v.counter, f, g⟩ : CatVars), some op)) = .error x) ∧
            (∀ st', (appendText env (d0.content inD f) st.prev).map (fun t => (⟨addToLast t st.outs, d0.content inD f, g⟩ : CatState)) = .ok st' →
              ∃ v' op, (appendOp env d inD outD f v.prev o.1).map (fun op => ((⟨some o.1, v.counter, f, g⟩ : CatVars), some op)) = .ok (v', op) ∧
                CatDescribes inD outD false d0 st' v' (op.elim d (CatOp.apply d))) := by
          intro g
          cases ht : appendText env (d0.content inD f) st.prev with
          | error x =>
            simp only [Except.map]
            refine ⟨?_, by simp⟩
            intro y hy
            exact (happ g).1 y (by rw [ht]; simpa using hy)
          | ok t =>
            simp only [Except.map]
            refine ⟨by simp, ?_⟩
            rintro st' ⟨⟩
            exact (happ g).2 t ht
        cases g with
        | false =>
          simp only [Bool.false_eq_true, if_false, false_and]
          exact hap false
        | true =>
          simp only [if_true, true_and, hpg]
          cases hpr : st.prevGps with
          | false =>
            simp only [if_true, Bool.false_eq_true, if_false]
            exact hap true
          | true =>
            simp only [Bool.true_eq_false, if_false, if_true, Except.map]
            refine ⟨by simp, ?_⟩
            rintro st' ⟨⟩
            rw [hcnt]
            refine ⟨_, _, rfl, ?_⟩
            refine ⟨?_, by simp, fun _ => by simp, fun _ => rfl, fun _ => rfl⟩
            simp only [Option.elim, CatOp.apply]
            rw [putAll_snoc, ← h.disk]

theorem catFiles_run {env : CatEnv} {all : Bool} {inD outD sn : List Nat} (hne : inD ≠ outD) {d0 : Folders} :
    ∀ (fs : List (List Nat)) (d : Folders) (st : CatState) (v : CatVars), CatDescribes inD outD all d0 st v d →
    (∀ x, catLoop env all sn (fs.map (d0.content inD)) st = .error x → (catFiles env all inD outD sn fs d v).2 = .error x) ∧
    (∀ st', catLoop env all sn (fs.map (d0.content inD)) st = .ok st' → (catFiles env all inD outD sn fs d v).2 = .ok () ∧
      applyOps d (catFiles env all inD outD sn fs d v).1 = putAll d0 outD st'.outs) := by
  intro fs
  induction fs with
  | nil =>
    intro d st v h
    refine ⟨by simp [catLoop], ?_⟩
    intro st' hst
    simp only [List.map_nil, catLoop, Except.ok.injEq] at hst
    rw [← hst, catFiles]
    exact ⟨rfl, h.disk⟩
  | cons f fs ih =>
    intro d st v h
    obtain ⟨s1, s2⟩ := catFile_step (env := env) (sn := sn) hne h f
    rw [List.map_cons, catLoop, catFiles]
    cases hs : catStep env all sn st (d0.content inD f) with
    | error x =>
      rw [s1 x hs]
      refine ⟨?_, by simp⟩
      intro y hy
      simpa using hy
    | ok st1 =>
      obtain ⟨v', op, hf, hd⟩ := s2 st1 hs
      rw [hf]
      cases op with
      | none => exact ih d st1 v' hd
      | some op => exact ih (op.apply d) st1 v' hd

theorem gemCatRun_is (env : CatEnv) (all : Bool) (inD outD ext : List Nat) (names : List (List Nat)) (hne : inD ≠ outD) (d : Folders) :
    (∀ x, gemCat env all ext (d.raw inD names) = .error x → (gemCatRun env all inD outD ext names d).2 = .error x) ∧
    (∀ outs, gemCat env all ext (d.raw inD names) = .ok outs → (gemCatRun env all inD outD ext names d).2 = .ok () ∧
      applyOps d (gemCatRun env all inD outD ext names d).1 = putAll d outD outs) := by
  have hcont : (sortRaw ((d.raw inD names).filter fun e => catName ext e.name)).map RawFile.content =
      ((sortRaw ((d.raw inD names).filter fun e => catName ext e.name)).map RawFile.name).map (d.content inD) := by
    rw [List.map_map]
    apply List.map_congr_left
    intro e he
    have := List.mem_of_mem_filter ((sortRaw_perm _).mem_iff.mp he)
    unfold Folders.raw at this
    obtain ⟨n, _, rfl⟩ := List.mem_map.mp this
    rfl
  unfold gemCat gemCatRun gemCatFiles
  rw [hcont]
  cases (sortRaw ((d.raw inD names).filter fun e => catName ext e.name)).map RawFile.name with
  | nil => exact ⟨fun x hx => by simpa using hx, by simp⟩
  | cons f fs =>
    simp only [List.map_cons]
    cases env.readSN (d.content inD f) with
    | none => exact ⟨fun x hx => by simpa using hx, by simp⟩
    | some sn =>
      simp only
      have h0 : CatDescribes inD outD all d ⟨[], [], false⟩ {} d := ⟨rfl, rfl, fun _ => rfl, fun e => absurd rfl e, fun e => absurd rfl e⟩
      obtain ⟨r1, r2⟩ := catFiles_run (env := env) (sn := sn) hne (f :: fs) d _ _ h0
      rw [List.map_cons] at r1 r2
      cases hl : catLoop env all sn (d.content inD f :: fs.map (d.content inD)) ⟨[], [], false⟩ with
      | error x =>
        refine ⟨?_, by simp [Except.map]⟩
        intro y hy
        simp only [Except.map, Except.error.injEq] at hy
        rw [← hy]
        exact r1 x hl
      | ok st' =>
        refine ⟨by simp [Except.map], ?_⟩
        intro outs ho
        simp only [Except.map, Except.ok.injEq] at ho
        rw [← ho]
        exact r2 st' hl

theorem outName_inj {a b : Nat} {sn : List Nat} (h : outName a sn = outName b sn) : a = b := by
  unfold outName at h
  exact padNum_injective (List.append_cancel_left (List.append_cancel_right (List.append_cancel_right h)))

theorem putAll_get (outD : List Nat) : ∀ (outs : List (List Nat × List Nat)) (d : Folders), (outs.map Prod.fst).Nodup →
    (∀ o ∈ outs, putAll d outD outs (outD, o.1) = some o.2) ∧ ∀ q, (∀ o ∈ outs, q ≠ (outD, o.1)) → putAll d outD outs q = d q := by
  intro outs
  induction outs with
  | nil => intro d _; exact ⟨by simp, fun q _ => rfl⟩
  | cons o l ih =>
    intro d hn
    rw [List.map_cons, List.nodup_cons] at hn
    obtain ⟨i1, i2⟩ := ih (d.put (outD, o.1) o.2) hn.2
    have e : putAll d outD (o :: l) = putAll (d.put (outD, o.1) o.2) outD l := rfl
    rw [e]
    refine ⟨?_, ?_⟩
    · intro x hx
      rcases List.mem_cons.mp hx with rfl | hx
      · rw [i2 _ (by
          intro y hy e
          simp only [Prod.mk.injEq, true_and] at e
          exact hn.1 (e ▸ List.mem_map_of_mem hy)), put_same]
      · exact i1 x hx
    · intro q hq
      rw [i2 q fun x hx => hq x (by simp [hx]), put_other _ _ (hq o (by simp))]

/-- **C98, result.** A merge into another folder succeeds exactly if the raw files can be merged; then the output folder holds the merged files (see C43,
C44, C57, C58 for what is in them), and no other file has changed. -/
theorem C98_result (env : CatEnv) (inD outD ext : List Nat) (names : List (List Nat)) (hne : inD ≠ outD) (d : Folders) :
    (∀ x, gemCat env false ext (d.raw inD names) = .error x → (gemCatRun env false inD outD ext names d).2 = .error x) ∧
    ∀ outs, gemCat env false ext (d.raw inD names) = .ok outs → (gemCatRun env false inD outD ext names d).2 = .ok () ∧
      (∀ o ∈ outs, applyOps d (gemCatRun env false inD outD ext names d).1 (outD, o.1) = some o.2) ∧
      ∀ q, (∀ o ∈ outs, q ≠ (outD, o.1)) → applyOps d (gemCatRun env false inD outD ext names d).1 q = d q := by
  obtain ⟨r1, r2⟩ := gemCatRun_is env false inD outD ext names hne d
  refine ⟨r1, ?_⟩
  intro outs ho
  obtain ⟨h1, h2⟩ := r2 outs ho
  have hn : (outs.map Prod.fst).Nodup := by
    unfold gemCat at ho
    obtain ⟨sn, _, _, gr, _, _, _, _, _, h6, _⟩ := gemCat_built env _ outs ho
    rw [h6]
    exact List.nodup_range.map fun a b hab => outName_inj hab
  rw [h2]
  exact ⟨h1, putAll_get outD outs d hn⟩

/-- Two raw files with GPS data, numbers 1 and 2, in the folder `raw`. -/
def twoRaw : Folders := fun p => if p = (bytes "raw", bytes "FILE0001.077") then some fileA.text
  else if p = (bytes "raw", bytes "FILE0002.077") then some fileC else none

/-- They are merged into two files in another folder, and a merge interrupted in the second is completed by the next. -/
example : gemCat demoCatEnv false [] (twoRaw.raw (bytes "raw") [bytes "FILE0001.077", bytes "FILE0002.077"]) =
      .ok [(bytes "FILE0000.077", fileA.text), (bytes "FILE0001.077", fileC)] ∧
    (gemCatRun demoCatEnv false (bytes "raw") (bytes "out") [] [bytes "FILE0001.077", bytes "FILE0002.077"] twoRaw).1 =
      [.copy (bytes "out", bytes "FILE0000.077") fileA.text, .copy (bytes "out", bytes "FILE0001.077") fileC] ∧
    InterruptedAt twoRaw (gemCatRun demoCatEnv false (bytes "raw") (bytes "out") [] [bytes "FILE0001.077", bytes "FILE0002.077"] twoRaw).1
      ((twoRaw.put (bytes "out", bytes "FILE0000.077") fileA.text).put (bytes "out", bytes "FILE0001.077") (fileC.take 20)) := by
  have h : (gemCatRun demoCatEnv false (bytes "raw") (bytes "out") [] [bytes "FILE0001.077", bytes "FILE0002.077"] twoRaw).1 =
      [.copy (bytes "out", bytes "FILE0000.077") fileA.text, .copy (bytes "out", bytes "FILE0001.077") fileC] := by decide +kernel
  refine ⟨by decide +kernel, h, ?_⟩
  rw [h]
  exact ⟨[.copy (bytes "out", bytes "FILE0000.077") fileA.text], .copy (bytes "out", bytes "FILE0001.077") fileC, [], 20, rfl, rfl⟩

/-- **C98, violated (same folder).** If the output folder is the input folder, the merge reports success, but a raw file has been replaced by another one; and it
cannot be repeated: a second run fails. -/
theorem C98_violated_same_folder :
    let r := gemCatRun demoCatEnv false (bytes "raw") (bytes "raw") [] [bytes "FILE0001.077", bytes "FILE0002.077"] twoRaw
    r.2 = .ok () ∧ twoRaw (bytes "raw", bytes "FILE0001.077") = some fileA.text ∧ applyOps twoRaw r.1 (bytes "raw", bytes "FILE0001.077") = some fileC ∧
    (gemCatRun demoCatEnv false (bytes "raw") (bytes "raw") [] [bytes "FILE0000.077", bytes "FILE0001.077", bytes "FILE0002.077"]
      (applyOps twoRaw r.1)).2 = .error .other := by
  have e1 : (gemCatRun demoCatEnv false (bytes "raw") (bytes "raw") [] [bytes "FILE0001.077", bytes "FILE0002.077"] twoRaw).1 =
      [.copy (bytes "raw", bytes "FILE0000.077") fileA.text, .copy (bytes "raw", bytes "FILE0001.077") fileC] := by decide +kernel
  have e2 : (gemCatRun demoCatEnv false (bytes "raw") (bytes "raw") [] [bytes "FILE0001.077", bytes "FILE0002.077"] twoRaw).2.toOption = some () := by
    decide +kernel
  intro r
  refine ⟨?_, by decide +kernel, ?_, ?_⟩
  · cases hr : r.2 with
    | ok u => rfl
    | error x => rw [show (gemCatRun demoCatEnv false (bytes "raw") (bytes "raw") [] [bytes "FILE0001.077", bytes "FILE0002.077"] twoRaw).2 = .error x from hr] at e2; simp [Except.toOption] at e2
  · rw [show r.1 = _ from e1]; decide +kernel
  · rw [show r.1 = _ from e1]
    rfl

end Gemlog
