import Verif.Lemmas.CatRead
import Mathlib.Data.List.Chain

/-!
# Properties C43, C44, C45, C57, C58: merging raw files
-/

namespace Gemlog

/-! ## C43 -/

/-- No line is blank. -/
def NoBlankLine (f : List Nat) : Prop := ∀ l ∈ textLines f, ∃ b ∈ l, b ≠ 10 ∧ b ≠ 32

/-- `t` is the file `f` from its first line beginning with `D` on, unchanged, or with a new number behind the comma of
that line. (`pre`: the lines before it; `s`: the line, with its newline; `post`: the lines behind it.) -/
def AppendedAs (f t : List Nat) : Prop :=
  ∃ pre s s' post, f = pre ++ s ++ post ∧ EndsLine pre ∧ pre.head? ≠ some 68 ∧ (¬ ∃ a b, pre = a ++ 10 :: 68 :: b) ∧
    s.head? = some 68 ∧ (∀ b ∈ s.dropLast, b ≠ 10) ∧ (s.getLast? = some 10 ∨ post = []) ∧ t = s' ++ post ∧
    (s' = s ∨ ∃ c v, (∃ w, v = intStr w) ∧ s' = c ++ [44] ++ v ++ [10] ∧
      ∃ old, pyInt old ≠ none ∧ (s = c ++ [44] ++ old ++ [10] ∨ s = c ++ [44] ++ old))

/-- A merged file: the first file as it is, then the others in order, each from its first sample on. -/
inductive MergedFrom : List (List Nat) → List Nat → Prop
  | one (f : List Nat) : MergedFrom [f] f
  | add {g : List (List Nat)} {c f t : List Nat} : MergedFrom g c → AppendedAs f t → MergedFrom (g ++ [f]) (c ++ t)

theorem notBlank_iff (l : List Nat) : notBlank l = true ↔ ∃ b ∈ l, b ≠ 10 ∧ b ≠ 32 := by
  simp [notBlank, List.any_eq_true]

theorem chomp_head {l : List Nat} (h : notBlank l = true) : (chomp l).head? = l.head? := by
  obtain ⟨b, hb, h1, _⟩ := (notBlank_iff l).mp h
  unfold chomp
  split_ifs with h2
  · cases l with
    | nil => simp at hb
    | cons x l =>
      cases l with
      | nil => simp at h2 hb; omega
      | cons y l => simp [List.dropLast]
  · rfl

theorem findD_some : ∀ (ls : List (List Nat)), (∀ l ∈ ls, notBlank l = true) → ∀ j, findD ls = some j →
    ∃ s, ls[j]? = some s ∧ s.head? = some 68 ∧ peekLine ls j = some (chomp s) ∧ ∀ l ∈ ls.take j, l.head? ≠ some 68 := by
  intro ls
  induction ls with
  | nil => intro _ j h; simp [findD] at h
  | cons l ls ih =>
    intro hb j h
    have hl := hb l (by simp)
    have hp : peekLine (l :: ls) 0 = some (chomp l) := by
      simp [peekLine, hl]
    rw [findD, hp] at h
    simp only [chomp_head hl] at h
    split_ifs at h with hd
    · simp only [Option.some.injEq] at h
      subst h
      exact ⟨l, rfl, hd, hp, by simp⟩
    · rw [Option.map_eq_some_iff] at h
      obtain ⟨i, hi, rfl⟩ := h
      obtain ⟨s, h1, h2, h3, h4⟩ := ih (fun x hx => hb x (by simp [hx])) i hi
      refine ⟨s, by simpa using h1, h2, by simpa [peekLine] using h3, ?_⟩
      intro x hx
      rw [List.take_succ_cons] at hx
      rcases List.mem_cons.mp hx with rfl | hx
      · exact hd
      · exact h4 x hx

theorem textLinesGo_ends : ∀ (content cur : List Nat) (j : Nat), j < (textLinesGo cur content).length →
    EndsLine ((textLinesGo cur content).take j).flatten := by
  intro content
  induction content with
  | nil =>
    intro cur j h
    unfold textLinesGo at h ⊢
    split_ifs at h ⊢ with h1
    · simp at h
    · simp at h; subst h; left; simp
  | cons b l ih =>
    intro cur j h
    unfold textLinesGo at h ⊢
    split_ifs at h ⊢ with h1
    · cases j with
      | zero => left; simp
      | succ j =>
        right
        rw [List.take_succ_cons, List.flatten_cons, List.getLast?_append]
        rcases ih [] j (by simpa using h) with h2 | h2
        · rw [h2]; simp
        · rw [h2]; simp
    · exact ih _ j h

theorem splitCommaGo_ne : ∀ (s cur : List Nat), splitCommaGo cur s ≠ [] := by
  intro s
  induction s with
  | nil => intro cur; simp [splitCommaGo]
  | cons b s ih =>
    intro cur
    unfold splitCommaGo
    split_ifs
    · simp
    · exact ih _

theorem chomp_cases (s : List Nat) : s = chomp s ++ [10] ∨ s = chomp s := by
  unfold chomp
  split_ifs with h
  · left
    obtain ⟨l, rfl⟩ := List.getLast?_eq_some_iff.mp h
    simp
  · right; rfl

theorem splitCommaGo_join : ∀ (s cur : List Nat) (c1 c2 : List Nat), splitCommaGo cur s = [c1, c2] →
    cur ++ s = c1 ++ [44] ++ c2 := by
  intro s
  induction s with
  | nil => intro cur c1 c2 h; simp [splitCommaGo] at h
  | cons b s ih =>
    intro cur c1 c2 h
    unfold splitCommaGo at h
    split_ifs at h with hb
    · simp only [List.cons.injEq] at h
      have : ∀ (s cur : List Nat) (c : List Nat), splitCommaGo cur s = [c] → cur ++ s = c := by
        intro s
        induction s with
        | nil => intro cur c h; simpa [splitCommaGo] using h
        | cons x s ih2 =>
          intro cur c h
          unfold splitCommaGo at h
          split_ifs at h with hx
          · simp only [List.cons.injEq] at h
            exact absurd h.2 (splitCommaGo_ne s [])
          · rw [← ih2 _ _ h]; simp
      have h2 := this s [] c2 h.2
      rw [← h.1, ← h2, hb]; simp
    · rw [← ih _ _ _ h]; simp

theorem textLinesGo_line_at : ∀ (content cur : List Nat) (j : Nat) (l : List Nat), (∀ b ∈ cur, b ≠ 10) →
    (textLinesGo cur content)[j]? = some l →
    (∀ b ∈ l.dropLast, b ≠ 10) ∧ (l.getLast? = some 10 ∨ (textLinesGo cur content).drop (j + 1) = []) := by
  intro content
  induction content with
  | nil =>
    intro cur j l hc h
    unfold textLinesGo at h ⊢
    split_ifs at h ⊢ with h1
    · simp at h
    · cases j with
      | zero =>
        simp only [List.getElem?_cons_zero, Option.some.injEq] at h
        subst h
        exact ⟨fun b hb => hc b (List.mem_of_mem_dropLast hb), .inr (by simp)⟩
      | succ j => simp at h
  | cons b content ih =>
    intro cur j l hc h
    unfold textLinesGo at h ⊢
    split_ifs at h ⊢ with h1
    · cases j with
      | zero =>
        simp only [List.getElem?_cons_zero, Option.some.injEq] at h
        subst h
        exact ⟨by simpa using hc, .inl (by simp)⟩
      | succ j =>
        obtain ⟨i1, i2⟩ := ih [] j l (by simp) (by simpa using h)
        exact ⟨i1, by simpa using i2⟩
    · exact ih _ j l (by
        intro y hy
        rcases List.mem_append.mp hy with hy | hy
        · exact hc y hy
        · simp at hy; rw [hy]; exact h1) h

theorem appendText_spec {env : CatEnv} {f prev t : List Nat} (hb : NoBlankLine f) (h : appendText env f prev = .ok t) :
    AppendedAs f t := by
  have hnb : ∀ l ∈ textLines f, notBlank l = true := fun l hl => (notBlank_iff l).mpr (hb l hl)
  -- the situation at the line found
  have key : ∀ j s, (textLines f)[j]? = some s → (∀ l ∈ (textLines f).take j, l.head? ≠ some 68) →
      f = ((textLines f).take j).flatten ++ s ++ ((textLines f).drop (j + 1)).flatten ∧
      EndsLine ((textLines f).take j).flatten ∧ ((textLines f).take j).flatten.head? ≠ some 68 ∧
      ¬ ∃ a b, ((textLines f).take j).flatten = a ++ 10 :: 68 :: b := by
    intro j s h1 h4
    obtain ⟨hj, hj2⟩ := List.getElem?_eq_some_iff.mp h1
    have hend := textLinesGo_ends f [] j hj
    have e1 : (textLines f).take j ++ s :: (textLines f).drop (j + 1) = textLines f := by
      rw [← hj2, ← List.drop_eq_getElem_cons hj, List.take_append_drop]
    have htl : textLines ((textLines f).take j).flatten = (textLines f).take j := by
      have : ∀ (content cur : List Nat) (j : Nat), (∀ b ∈ cur, b ≠ 10) → j < (textLinesGo cur content).length →
          ∀ l ∈ (textLinesGo cur content).take j, NlLine l := by
        intro content
        induction content with
        | nil =>
          intro cur j _ h l hl
          unfold textLinesGo at h hl
          split_ifs at h hl with h1
          · simp at h
          · simp at h; subst h; simp at hl
        | cons b l ih =>
          intro cur j hc h x hx
          unfold textLinesGo at h hx
          split_ifs at h hx with h1
          · cases j with
            | zero => simp at hx
            | succ j =>
              rw [List.take_succ_cons] at hx
              rcases List.mem_cons.mp hx with rfl | hx
              · exact ⟨cur, rfl, hc⟩
              · exact ih [] j (by simp) (by simpa using h) x hx
          · exact ih _ j (by
              intro y hy
              rcases List.mem_append.mp hy with hy | hy
              · exact hc y hy
              · simp at hy; rw [hy]; exact h1) h x hx
      exact textLines_flatten _ (this f [] j (by simp) hj)
    have hany := any_head 68 (by decide) ((textLines f).take j).flatten [] (by simp)
    have hno : ¬ ∃ l ∈ textLinesGo [] ((textLines f).take j).flatten, l.head? = some 68 := by
      rintro ⟨l, hl, h5⟩
      rw [show textLinesGo [] ((textLines f).take j).flatten = (textLines f).take j from htl] at hl
      exact h4 l hl h5
    rw [hany, not_or] at hno
    refine ⟨?_, hend, by simpa using hno.1, hno.2⟩
    conv_lhs => rw [← textLines_join f, ← e1]
    rw [List.flatten_append, List.flatten_cons, List.append_assoc]
  unfold appendText at h
  cases hv : formatVersion f with
  | none => simp [hv] at h
  | some format =>
    simp only [hv] at h
    cases hd : findD (textLines f) with
    | none =>
      simp only [hd] at h
      split_ifs at h
      cases hr : (env.read prev format).bind lastPressure <;> simp [hr] at h
    | some j =>
      obtain ⟨s, h1, h2, h3, h4⟩ := findD_some _ hnb j hd
      obtain ⟨k1, k2, k3, k4⟩ := key j s h1 h4
      obtain ⟨k5, k6⟩ := textLinesGo_line_at f [] j s (by simp) h1
      replace k6 : s.getLast? = some 10 ∨ ((textLines f).drop (j + 1)).flatten = [] := by
        rcases k6 with k6 | k6
        · exact .inl k6
        · right
          rw [show (textLines f).drop (j + 1) = [] from k6]
          rfl
      obtain ⟨hj, hj2⟩ := List.getElem?_eq_some_iff.mp h1
      simp only [hd, h3, Option.elim_some] at h
      split_ifs at h with hf
      · cases hr : (env.read prev format).bind lastPressure with
        | error x => simp [hr] at h
        | ok pStart =>
          simp only [hr] at h
          unfold adjustLine at h
          split at h
          · simp at h
          · rename_i first hfirst
            split at hfirst
            · rename_i c1 c2 hc
              cases hp : pyInt c2 with
              | none => simp [hp] at hfirst
              | some v =>
                simp only [hp, Except.ok.injEq] at hfirst
                have hjoin := splitCommaGo_join (chomp s) [] c1 c2 hc
                rw [List.nil_append] at hjoin
                simp only [Except.ok.injEq] at h
                refine ⟨_, s, first, _, k1, k2, k3, k4, h2, k5, k6, h.symm, Or.inr ⟨c1, intStr (v - pStart), ⟨_, rfl⟩, hfirst.symm,
                  c2, by rw [hp]; simp, ?_⟩⟩
                rcases chomp_cases s with h5 | h5
                · left; rw [← hjoin]; exact h5
                · right; rw [← hjoin]; exact h5
            · simp at hfirst
      · simp only [Except.ok.injEq] at h
        refine ⟨_, s, s, _, k1, k2, k3, k4, h2, k5, k6, ?_, Or.inl rfl⟩
        rw [← h, List.drop_eq_getElem_cons hj, hj2, List.flatten_cons]

theorem addToLast_append (t : List Nat) (o : List Nat × List Nat) : ∀ os, addToLast t (os ++ [o]) = os ++ [(o.1, o.2 ++ t)] := by
  intro os
  induction os with
  | nil => rfl
  | cons a os ih =>
    cases os with
    | nil => rfl
    | cons b os =>
      rw [List.cons_append, List.cons_append, addToLast, ← List.cons_append, ih]
      · simp
      · simp

/-- The specification of grouping: the files in order, each once; a group starts with a file that has a fix; in a group no
two successive files both have one; a group is only followed by another one if its last file has a fix. -/
structure Grouped (files : List (List Nat)) (groups : List (List (List Nat))) : Prop where
  all : groups.flatten = files
  starts : ∀ g ∈ groups, ∃ f, g.head? = some f ∧ HasFix f
  within : ∀ g ∈ groups, g.IsChain fun a b => ¬ (HasFix a ∧ HasFix b)
  breaks : groups.IsChain fun g _ => ∃ f, g.getLast? = some f ∧ HasFix f

/-- Like `MergedFrom`, with the texts `AppendFile` adds (helper). -/
inductive Built (env : CatEnv) : List (List Nat) → List Nat → Prop
  | one (f : List Nat) : Built env [f] f
  | add {g : List (List Nat)} {p c f t : List Nat} : Built env g c → g.getLast? = some p → appendText env f p = .ok t →
      Built env (g ++ [f]) (c ++ t)

theorem Built.merged {env : CatEnv} {g : List (List Nat)} {c : List Nat} (h : Built env g c) :
    (∀ f ∈ g, NoBlankLine f) → MergedFrom g c := by
  induction h with
  | one f => intro _; exact .one f
  | add h1 h2 h3 ih =>
    intro hb
    exact .add (ih fun f hf => hb f (by simp [hf])) (appendText_spec (hb _ (by simp)) h3)

/-- The invariant of the loop once a file has been written (helper). -/
structure CatInv (env : CatEnv) (sn : List Nat) (ps : List (List Nat)) (st : CatState) (groups : List (List (List Nat))) : Prop where
  grouped : Grouped ps groups
  ne : groups ≠ []
  last : ps.getLast? = some st.prev
  gps : st.prevGps = true ↔ HasFix st.prev
  names : st.outs.map Prod.fst = (List.range groups.length).map fun i => outName i sn
  merged : List.Forall₂ (Built env) groups (st.outs.map Prod.snd)

theorem catInv_ne {env sn ps st groups} (h : CatInv env sn ps st groups) : st.outs ≠ [] := by
  intro h2
  have := h.merged
  rw [h2] at this
  cases this
  exact h.ne rfl

theorem forall2_concat {α β : Type} {R : α → β → Prop} {a : List α} {b : List β} {x : α} {y : β}
    (h : List.Forall₂ R a b) (hxy : R x y) : List.Forall₂ R (a ++ [x]) (b ++ [y]) := by
  induction h with
  | nil => exact .cons hxy .nil
  | cons h1 _ ih => exact .cons h1 ih

theorem forall2_concat_inv {α β : Type} {R : α → β → Prop} {x : α} : ∀ {a : List α} {b : List β},
    List.Forall₂ R (a ++ [x]) b → ∃ b' y, b = b' ++ [y] ∧ List.Forall₂ R a b' ∧ R x y := by
  intro a
  induction a with
  | nil =>
    intro b h
    cases h with
    | cons h1 h2 => cases h2; exact ⟨[], _, rfl, .nil, h1⟩
  | cons c a ih =>
    intro b h
    cases h with
    | cons h1 h2 =>
      obtain ⟨b', y, rfl, h3, h4⟩ := ih h2
      exact ⟨_ :: b', y, rfl, .cons h1 h3, h4⟩

/-- Appending to the current output file keeps the invariant (helper). -/
theorem catInv_append {env : CatEnv} {sn ps st groups} {f t : List Nat} {g : Bool} (h : CatInv env sn ps st groups)
    (ht : appendText env f st.prev = .ok t) (hg : g = true ↔ HasFix f)
    (hnot : ¬ (HasFix st.prev ∧ HasFix f)) :
    ∃ groups', CatInv env sn (ps ++ [f]) ⟨addToLast t st.outs, f, g⟩ groups' := by
  obtain ⟨gs, cur, rfl⟩ : ∃ gs cur, groups = gs ++ [cur] := by
    rcases List.eq_nil_or_concat groups with h1 | ⟨gs, cur, h1⟩
    · exact absurd h1 h.ne
    · exact ⟨gs, cur, by rw [h1, List.concat_eq_append]⟩
  obtain ⟨b', y, hby, hm1, hm2⟩ := forall2_concat_inv h.merged
  have hcur : cur.getLast? = some st.prev := by
    have h1 := h.last
    rw [← h.grouped.all, List.flatten_append, List.getLast?_append] at h1
    obtain ⟨x, hx, _⟩ := h.grouped.starts cur (by simp)
    have hne : cur ≠ [] := by rintro rfl; simp at hx
    simpa [List.getLast?_eq_some_getLast hne] using h1
  obtain ⟨os, o, hos⟩ | h0 : (∃ os o, st.outs = os ++ [o]) ∨ st.outs = [] := by
    rcases List.eq_nil_or_concat st.outs with h1 | ⟨gs, cur, h1⟩
    · exact Or.inr h1
    · exact Or.inl ⟨gs, cur, by rw [h1, List.concat_eq_append]⟩
  · have hnames := h.names
    rw [hos, List.map_append, List.map_singleton] at hby
    rw [hos] at hnames
    obtain ⟨e1, e2⟩ := List.append_inj' hby rfl
    simp only [List.cons.injEq, and_true] at e2
    refine ⟨gs ++ [cur ++ [f]], ⟨⟨?_, ?_, ?_, ?_⟩, by simp, by simp, hg, ?_, ?_⟩⟩
    · rw [← h.grouped.all]; simp
    · intro g' hg'
      rcases List.mem_append.mp hg' with h1 | h1
      · exact h.grouped.starts g' (by simp [h1])
      · simp only [List.mem_singleton] at h1
        subst h1
        obtain ⟨x, hx, hx2⟩ := h.grouped.starts cur (by simp)
        refine ⟨x, ?_, hx2⟩
        rw [List.head?_append, hx]; rfl
    · intro g' hg'
      rcases List.mem_append.mp hg' with h1 | h1
      · exact h.grouped.within g' (by simp [h1])
      · simp only [List.mem_singleton] at h1
        subst h1
        rw [List.isChain_append]
        refine ⟨h.grouped.within cur (by simp), by simp, ?_⟩
        intro x hx y hy
        rw [hcur] at hx
        simp only [Option.mem_def, Option.some.injEq, List.head?_cons] at hx hy
        subst hx; subst hy
        exact hnot
    · have h1 := h.grouped.breaks
      rw [List.isChain_append] at h1 ⊢
      refine ⟨h1.1, by simp, ?_⟩
      intro x hx y hy
      exact h1.2.2 x hx cur (by simp)
    · rw [hos, addToLast_append]
      simpa using hnames
    · rw [hos, addToLast_append, List.map_append]
      refine forall2_concat ?_ ?_
      · rw [e1]; exact hm1
      · exact .add (by rw [e2]; exact hm2) hcur ht
  · exact absurd h0 (catInv_ne h)

/-- Starting a new output file keeps the invariant (helper). -/
theorem catInv_new {env sn ps st groups} {f : List Nat} (h : CatInv env sn ps st groups) (h1 : HasFix st.prev) (h2 : HasFix f) :
    ∃ groups', CatInv env sn (ps ++ [f]) ⟨st.outs ++ [(outName st.outs.length sn, f)], f, true⟩ groups' := by
  have hlen : st.outs.length = groups.length := by
    have := h.merged.length_eq
    simpa using this.symm
  refine ⟨groups ++ [[f]], ⟨⟨?_, ?_, ?_, ?_⟩, by simp, by simp, by simpa using h2, ?_, ?_⟩⟩
  · rw [← h.grouped.all]; simp
  · intro g' hg'
    rcases List.mem_append.mp hg' with h3 | h3
    · exact h.grouped.starts g' h3
    · simp only [List.mem_singleton] at h3
      subst h3
      exact ⟨f, rfl, h2⟩
  · intro g' hg'
    rcases List.mem_append.mp hg' with h3 | h3
    · exact h.grouped.within g' h3
    · simp only [List.mem_singleton] at h3
      subst h3
      simp
  · rw [List.isChain_append]
    refine ⟨h.grouped.breaks, by simp, ?_⟩
    intro g hg y _
    obtain ⟨x, hx, _⟩ := h.grouped.starts g (List.mem_of_getLast? hg)
    have hne : g ≠ [] := by rintro rfl; simp at hx
    refine ⟨st.prev, ?_, h1⟩
    obtain ⟨gs, hgs⟩ := List.getLast?_eq_some_iff.mp hg
    have h4 := h.last
    rw [← h.grouped.all, hgs, List.flatten_append, List.getLast?_append] at h4
    simpa [List.getLast?_eq_some_getLast hne] using h4
  · rw [List.map_append, h.names, hlen]
    simp [List.range_succ]
  · rw [List.map_append]
    exact forall2_concat h.merged (.one f)

/-- The rest of the loop keeps the invariant (helper). -/
theorem catLoop_inv {env : CatEnv} {sn : List Nat} : ∀ (fs ps : List (List Nat)) (st st' : CatState) groups,
    CatInv env sn ps st groups → catLoop env false sn fs st = .ok st' →
    ∃ groups', CatInv env sn (ps ++ fs) st' groups' := by
  intro fs
  induction fs with
  | nil =>
    intro ps st st' groups h h2
    simp only [catLoop, Except.ok.injEq] at h2
    exact ⟨groups, by rw [List.append_nil, ← h2]; exact h⟩
  | cons f fs ih =>
    intro ps st st' groups h h2
    rw [catLoop] at h2
    cases hs : catStep env false sn st f with
    | error x => simp [hs] at h2
    | ok st1 =>
      simp only [hs] at h2
      have hstep : ∃ groups', CatInv env sn (ps ++ [f]) st1 groups' := by
        have hne := catInv_ne h
        unfold catStep at hs
        rw [if_neg (by decide)] at hs
        cases hgp : hasGps f with
        | none => simp [hgp] at hs
        | some g =>
          have hg := hasGps_true hgp
          simp only [hgp, hne, and_false, if_false] at hs
          cases g with
          | true =>
            simp only [if_true] at hs
            cases hp : st.prevGps with
            | false =>
              simp only [hp, if_true] at hs
              cases ha : appendText env f st.prev with
              | error x => simp [ha, Except.map] at hs
              | ok t =>
                simp only [ha, Except.map, Except.ok.injEq] at hs
                rw [← hs]
                refine catInv_append h ha hg ?_
                intro hh
                have := h.gps.mpr hh.1
                rw [hp] at this
                exact absurd this (by decide)
            | true =>
              simp only [hp, if_false, Except.ok.injEq, Bool.true_eq_false] at hs
              rw [← hs]
              exact catInv_new h (h.gps.mp hp) (hg.mp rfl)
          | false =>
            simp only [Bool.false_eq_true, if_false] at hs
            cases ha : appendText env f st.prev with
            | error x => simp [ha, Except.map] at hs
            | ok t =>
              simp only [ha, Except.map, Except.ok.injEq] at hs
              rw [← hs]
              refine catInv_append h ha hg ?_
              intro hh
              exact absurd (hg.mpr hh.2) (by decide)
      obtain ⟨g1, h3⟩ := hstep
      obtain ⟨g2, h4⟩ := ih _ _ _ _ h3 h2
      exact ⟨g2, by simpa using h4⟩

/-- Merging with the texts added (helper). -/
theorem gemCat_built (env : CatEnv) (files : List (List Nat)) (outs : List (List Nat × List Nat))
    (h : gemCatFiles env false files = .ok outs) :
    ∃ (sn : List Nat) (before after : List (List Nat)) (groups : List (List (List Nat))),
      (∃ f, files.head? = some f ∧ env.readSN f = some sn) ∧
      files = before ++ after ∧ (∀ f ∈ before, ¬ HasFix f) ∧ (∀ f ∈ after.head?, HasFix f) ∧
      Grouped after groups ∧
      outs.map Prod.fst = (List.range groups.length).map (fun i => outName i sn) ∧
      List.Forall₂ (Built env) groups (outs.map Prod.snd) := by
  cases files with
  | nil => simp [gemCatFiles] at h
  | cons f0 files0 =>
    unfold gemCatFiles at h
    simp only at h
    cases hsn : env.readSN f0 with
    | none => simp [hsn] at h
    | some sn =>
      simp only [hsn] at h
      refine ⟨sn, ?_⟩
      have hmain : ∀ (fs : List (List Nat)) (p : List Nat) (b : Bool) (st' : CatState),
          catLoop env false sn fs ⟨[], p, b⟩ = .ok st' →
          ∃ before after groups, fs = before ++ after ∧ (∀ f ∈ before, ¬ HasFix f) ∧ (∀ f ∈ after.head?, HasFix f) ∧
            Grouped after groups ∧
            st'.outs.map Prod.fst = (List.range groups.length).map (fun i => outName i sn) ∧
            List.Forall₂ (Built env) groups (st'.outs.map Prod.snd) := by
        intro fs
        induction fs with
        | nil =>
          intro p b st' h
          simp only [catLoop, Except.ok.injEq] at h
          rw [← h]
          exact ⟨[], [], [], rfl, by simp, by simp, ⟨rfl, by simp, by simp, by simp⟩, rfl, .nil⟩
        | cons f fs ih =>
          intro p b st' h
          rw [catLoop] at h
          cases hs : catStep env false sn ⟨[], p, b⟩ f with
          | error x => simp [hs] at h
          | ok st1 =>
            simp only [hs] at h
            unfold catStep at hs
            rw [if_neg (by decide)] at hs
            cases hgp : hasGps f with
            | none => simp [hgp] at hs
            | some g =>
              have hg := hasGps_true hgp
              simp only [hgp, and_true, if_true] at hs
              cases g with
              | false =>
                simp only [if_true, Except.ok.injEq] at hs
                rw [← hs] at h
                obtain ⟨be, af, gr, h1, h2, h3⟩ := ih _ _ _ h
                refine ⟨f :: be, af, gr, by rw [h1]; rfl, ?_, h3⟩
                intro x hx
                rcases List.mem_cons.mp hx with rfl | hx
                · intro hh
                  exact absurd (hg.mpr hh) (by decide)
                · exact h2 x hx
              | true =>
                simp only [Bool.true_eq_false, if_false, Except.ok.injEq] at hs
                have hinv : CatInv env sn [f] st1 [[f]] := by
                  rw [← hs]
                  refine ⟨⟨rfl, ?_, by simp, by simp⟩, by simp, rfl, hg, rfl, .cons (.one f) .nil⟩
                  intro g hg'
                  simp only [List.mem_singleton] at hg'
                  subst hg'
                  exact ⟨f, rfl, hg.mp rfl⟩
                obtain ⟨gr, h3⟩ := catLoop_inv fs [f] st1 st' _ hinv h
                exact ⟨[], f :: fs, gr, rfl, by simp, by simpa using hg.mp rfl, h3.grouped, h3.names, h3.merged⟩
      cases hl : catLoop env false sn (f0 :: files0) ⟨[], [], false⟩ with
      | error x => simp [hl, Except.map] at h
      | ok st' =>
        simp only [hl, Except.map, Except.ok.injEq] at h
        obtain ⟨be, af, gr, h1, h2, h3, h4, h5, h6⟩ := hmain _ _ _ _ hl
        rw [h] at h5 h6
        exact ⟨be, af, gr, ⟨f0, rfl, hsn⟩, h1, h2, h3, h4, h5, h6⟩

/-- **C43.** Whenever merging succeeds, the files from the first one with a fix on are distributed over groups (`Grouped`:
in order, each exactly once, every group starting with a file that has a fix), the outputs are numbered 0, 1, 2, ..., one per
group, and each consists of the first file of the group followed by the others from their first sample on. All files
before the first one with a fix are left out. -/
theorem C43_groups (env : CatEnv) (files : List (List Nat)) (outs : List (List Nat × List Nat))
    (hb : ∀ f ∈ files, NoBlankLine f) (h : gemCatFiles env false files = .ok outs) :
    ∃ (sn : List Nat) (before after : List (List Nat)) (groups : List (List (List Nat))),
      (∃ f, files.head? = some f ∧ env.readSN f = some sn) ∧
      files = before ++ after ∧ (∀ f ∈ before, ¬ HasFix f) ∧ (∀ f ∈ after.head?, HasFix f) ∧
      Grouped after groups ∧
      outs.map Prod.fst = (List.range groups.length).map
        (fun i => bytes "FILE" ++ zeroPad 4 (natStr i) ++ bytes "." ++ sn) ∧
      List.Forall₂ MergedFrom groups (outs.map Prod.snd) := by
  obtain ⟨sn, be, af, gr, h1, h2, h3, h4, h5, h6, h7⟩ := gemCat_built env files outs h
  refine ⟨sn, be, af, gr, h1, h2, h3, h4, h5, h6, ?_⟩
  have key : ∀ (gr : List (List (List Nat))) (cs : List (List Nat)), List.Forall₂ (Built env) gr cs →
      (∀ g ∈ gr, ∀ f ∈ g, NoBlankLine f) → List.Forall₂ MergedFrom gr cs := by
    intro gr cs hb
    induction hb with
    | nil => intro _; exact .nil
    | cons a _ ih =>
      intro hnb
      exact .cons (a.merged (hnb _ (by simp))) (ih fun g hg => hnb g (by simp [hg]))
  refine key _ _ h7 ?_
  intro g hg f hf
  apply hb
  rw [h2, List.mem_append]
  right
  rw [← h5.all]
  exact List.mem_flatten.mpr ⟨g, hg, hf⟩

theorem grouped_tail {a : List (List Nat)} {g : List (List (List Nat))} {files : List (List Nat)}
    (h : Grouped files (a :: g)) : Grouped g.flatten g :=
  ⟨rfl, fun x hx => h.starts x (by simp [hx]), fun x hx => h.within x (by simp [hx]), by
    have := h.breaks
    rw [List.isChain_cons] at this
    exact this.2⟩

theorem grouped_not_shorter {a b : List (List Nat)} {g1 g2 : List (List (List Nat))} {files : List (List Nat)}
    (h1 : Grouped files (a :: g1)) (h2 : Grouped files (b :: g2)) : ¬ a.length < b.length := by
  intro hlt
  have e : a ++ g1.flatten = b ++ g2.flatten := by
    have e1 := h1.all
    have e2 := h2.all
    rw [List.flatten_cons] at e1 e2
    rw [e1, e2]
  rw [List.append_eq_append_iff] at e
  rcases e with ⟨r, hr, hr2⟩ | ⟨r, hr, _⟩
  · cases g1 with
    | nil =>
      simp only [List.flatten_nil] at hr2
      have : r = [] := by
        cases r with
        | nil => rfl
        | cons x r => simp at hr2
      rw [this] at hr
      rw [hr] at hlt
      simp at hlt
    | cons c g1 =>
      obtain ⟨x, hx, hx2⟩ := h1.starts c (by simp)
      have hbr := h1.breaks
      rw [List.isChain_cons] at hbr
      obtain ⟨y, hy, hy2⟩ := hbr.1 c (by simp)
      cases r with
      | nil => rw [hr] at hlt; simp at hlt
      | cons z r =>
        cases c with
        | nil => simp at hx
        | cons x' c =>
          simp only [List.head?_cons, Option.some.injEq] at hx
          subst hx
          simp only [List.flatten_cons, List.cons_append, List.cons.injEq] at hr2
          have hin := h2.within b (by simp)
          rw [hr, List.isChain_append] at hin
          exact hin.2.2 y hy z (by simp) ⟨hy2, hr2.1 ▸ hx2⟩
  · rw [hr] at hlt
    simp at hlt

/-- **C43.** The rules of `Grouped` leave no choice: the grouping is determined by the files. -/
theorem C43_unique : ∀ (g1 g2 : List (List (List Nat))) (files : List (List Nat)), Grouped files g1 → Grouped files g2 →
    g1 = g2 := by
  intro g1
  induction g1 with
  | nil =>
    intro g2 files h1 h2
    cases g2 with
    | nil => rfl
    | cons b g2 =>
      obtain ⟨x, hx, _⟩ := h2.starts b (by simp)
      have h3 := h1.all.trans h2.all.symm
      cases b with
      | nil => simp at hx
      | cons y b => simp at h3
  | cons a g1 ih =>
    intro g2 files h1 h2
    cases g2 with
    | nil =>
      obtain ⟨x, hx, _⟩ := h1.starts a (by simp)
      have h3 := h1.all.trans h2.all.symm
      cases a with
      | nil => simp at hx
      | cons y b => simp at h3
    | cons b g2 =>
      have hlen : a.length = b.length := by
        have := grouped_not_shorter h1 h2
        have := grouped_not_shorter h2 h1
        omega
      have e : a ++ g1.flatten = b ++ g2.flatten := by
        have e1 := h1.all
        have e2 := h2.all
        rw [List.flatten_cons] at e1 e2
        rw [e1, e2]
      obtain ⟨rfl, e2⟩ := List.append_inj e hlen
      rw [ih g2 _ (grouped_tail h1) (by rw [e2]; exact grouped_tail h2)]

/-! ## C44, C45 -/

/-- All lines of a file (helper). -/
def RawText.lines (f : RawText) : List RawLine :=
  .other (bytes "#GemCSV" ++ bytes f.version) :: f.head.map .other ++ .sample f.t f.first :: f.rest

theorem RawText.text_lines (f : RawText) : f.text = (f.lines.map RawLine.text).flatten := by
  unfold RawText.text RawText.lines
  simp [RawLine.text, Function.comp_def]

theorem version_bytes {version : String} (hv : version ∈ ["0.85C", "0.9", "1.10"]) :
    (∀ b ∈ bytes "#GemCSV" ++ bytes version, b ≠ 10 ∧ b ≠ 32) ∧ (bytes "#GemCSV" ++ bytes version).length ≤ 254 ∧
    (∀ b ∈ (bytes "#GemCSV" ++ bytes version).head?, b = 35) ∧
    String.ofList (((bytes "#GemCSV" ++ bytes version).drop 7).map Char.ofNat) = version := by
  simp only [List.mem_cons, List.not_mem_nil, or_false] at hv
  rcases hv with rfl | rfl | rfl <;> decide +kernel

theorem lineD_time_length {t : Dec} {z : Int} (ht : t.text.length ≤ 100) (hz : z.natAbs < 10 ^ 21) :
    (lineD t z).length ≤ 255 := by
  have h1 : (natStr z.natAbs).length ≤ 21 := by
    have := natStrAux_length 20 (z.natAbs + 1) z.natAbs [] (by omega) (by simpa using hz)
    simpa [natStr] using this
  have h2 : (intStr z).length ≤ 22 := by
    unfold intStr
    split_ifs
    · simp; omega
    · omega
  have e : lineD t z = 68 :: (t.text ++ 44 :: intStr z ++ [10]) := by
    simp [lineD, joinFields, Field.text]
  rw [e]
  simp only [List.length_cons, List.length_append, List.length_nil]
  omega

theorem runningSums_append : ∀ (l m : List Int) (a : Int),
    runningSums a (l ++ m) = runningSums a l ++ runningSums (a + l.sum) m := by
  intro l
  induction l with
  | nil => intro m a; simp [runningSums]
  | cons x l ih => intro m a; simp [runningSums, ih, add_assoc]

theorem runningSums_last : ∀ (l : List Int) (a : Int), l ≠ [] → (runningSums a l).getLast? = some (a + l.sum) := by
  intro l
  induction l with
  | nil => intro a h; exact absurd rfl h
  | cons x l ih =>
    intro a _
    cases l with
    | nil => simp [runningSums]
    | cons y l =>
      rw [runningSums, runningSums, List.getLast?_cons_cons, ← runningSums, ih (a + x) (by simp)]
      simp [add_assoc]

/-- The sum of the steps of a file: its last pressure (helper). -/
def RawText.total (f : RawText) : Int := f.first + (f.rest.filterMap RawLine.step).sum

theorem RawText.total_last (f : RawText) : f.pressures.getLast? = some f.total := by
  unfold RawText.pressures RawText.total
  rw [runningSums_last _ _ (by simp)]
  simp

theorem RawText.total_lt {f : RawText} (h : f.Valid) : f.total.natAbs < 10 ^ 20 :=
  h.range _ (List.mem_of_getLast? f.total_last)

theorem RawText.first_lt {f : RawText} (h : f.Valid) : f.first.natAbs < 10 ^ 20 := by
  apply h.range
  unfold RawText.pressures
  simp [runningSums]

theorem RawText.lines_valid {f : RawText} (h : f.Valid) (hv : f.version ∈ ["0.85C", "0.9", "1.10"]) :
    ∀ l ∈ f.lines, l.Valid := by
  obtain ⟨v1, v2, v3, _⟩ := version_bytes hv
  intro l hl
  simp only [RawText.lines, List.mem_append, List.mem_cons, List.mem_map] at hl
  rcases hl with (rfl | ⟨x, hx, rfl⟩) | rfl | hl
  · refine ⟨fun b hb => (v1 b hb).1, v2, fun b hb => ?_⟩
    rw [v3 b hb]; decide
  · obtain ⟨_, h2, h3, h4⟩ := h.head x hx
    exact ⟨h2, h3, h4⟩
  · exact lineD_time_length h.time (lt_trans (RawText.first_lt h) (by norm_num))
  · exact h.rest l hl

theorem RawText.steps (f : RawText) : f.lines.filterMap RawLine.step = f.first :: f.rest.filterMap RawLine.step := by
  unfold RawText.lines
  have : ∀ l : List (List Nat), (l.map RawLine.other).filterMap RawLine.step = [] := by
    intro l
    induction l with
    | nil => rfl
    | cons x l ih => rw [List.map_cons, List.filterMap_cons]; exact ih
  rw [List.cons_append, List.filterMap_cons]
  simp only [RawLine.step]
  rw [List.filterMap_append, this, List.filterMap_cons]
  rfl

theorem RawText.textLines {f : RawText} (h : f.Valid) (hv : f.version ∈ ["0.85C", "0.9", "1.10"]) :
    Gemlog.textLines f.text = f.lines.map RawLine.text := by
  rw [f.text_lines]
  apply textLines_flatten
  intro l hl
  obtain ⟨x, hx, rfl⟩ := List.mem_map.mp hl
  obtain ⟨body, h1, h2, _⟩ := rawLine_isLine (RawText.lines_valid h hv x hx)
  exact ⟨body, h1, h2⟩

theorem chomp_line (body : List Nat) : chomp (body ++ [10]) = body := by
  unfold chomp
  rw [if_pos (by simp)]
  simp

theorem dec_noComma (x : Dec) : ∀ b ∈ x.text, b ≠ 44 := by
  intro b hb
  simp only [Dec.text, List.mem_append] at hb
  rcases hb with (hb | hb) | hb
  · split_ifs at hb <;> simp at hb; omega
  · exact natStr_noComma _ b hb
  · split_ifs at hb with h
    · simp at hb
    · rcases List.mem_cons.mp hb with rfl | hb
      · decide
      · have := isDigit_iff.mp (x.fpDigits b hb)
        omega

theorem adjust_lineD (t : Dec) (z p : Int) : adjustLine (68 :: joinFields [.dec t, .int z]) p = .ok (lineD t (z - p)) := by
  have e : (68 :: joinFields [.dec t, .int z]) = (68 :: t.text) ++ 44 :: intStr z := by
    simp [joinFields, Field.text]
  have hs : splitComma (68 :: joinFields [.dec t, .int z]) = [68 :: t.text, intStr z] := by
    rw [e]
    unfold splitComma
    rw [splitCommaGo_comma, splitCommaGo_plain]
    · simp
    · exact intStr_noComma z
    · intro b hb
      rcases List.mem_cons.mp hb with rfl | hb
      · decide
      · exact dec_noComma t b hb
  have hp : pyInt (intStr z) = some z := by
    simpa using pyInt_intStr z [] (by simp)
  unfold adjustLine
  rw [hs]
  simp only [hp, Except.ok.injEq]
  simp [lineD, joinFields, Field.text]

theorem find_first {head : List (List Nat)} {s : List Nat} {rest : List (List Nat)}
    (hh : ∀ l ∈ head, notBlank l = true ∧ l.head? ≠ some 68) (hs : notBlank s = true) (hs2 : s.head? = some 68) :
    findD (head ++ s :: rest) = some head.length ∧ peekLine (head ++ s :: rest) head.length = some (chomp s) := by
  induction head with
  | nil =>
    have hp : peekLine (s :: rest) 0 = some (chomp s) := by simp [peekLine, hs]
    refine ⟨?_, hp⟩
    rw [List.nil_append, findD, hp]
    simp [chomp_head hs, hs2]
  | cons l head ih =>
    obtain ⟨i1, i2⟩ := ih (fun x hx => hh x (by simp [hx]))
    obtain ⟨b1, b2⟩ := hh l (by simp)
    have hp : peekLine (l :: (head ++ s :: rest)) 0 = some (chomp l) := by simp [peekLine, b1]
    refine ⟨?_, ?_⟩
    · rw [List.cons_append, findD, hp]
      simp only [chomp_head b1]
      rw [if_neg b2, i1]
      rfl
    · simpa [peekLine] using i2

/-- What `AppendFile` adds for well-formed files (helper). -/
theorem append_good (env : CatEnv) {f p : RawText} (hf : f.Valid) (hp : p.Valid)
    (hvf : f.version ∈ ["0.85C", "0.9", "1.10"]) (hvp : p.version ∈ ["0.85C", "0.9", "1.10"])
    (hlen : p.lines.length ≤ 65520000) :
    appendText env f.text p.text
      = .ok (((RawLine.sample f.t (f.first - p.total) :: f.rest).map RawLine.text).flatten) := by
  obtain ⟨v1, v2, v3, v4⟩ := version_bytes hvf
  have hlines := RawText.textLines hf hvf
  -- the version
  have hnb0 : notBlank (bytes "#GemCSV" ++ bytes f.version ++ [10]) = true := by
    rw [notBlank_iff]
    exact ⟨35, by simp [bytes], by decide, by decide⟩
  have hver : formatVersion f.text = some f.version := by
    unfold formatVersion
    rw [hlines]
    unfold RawText.lines
    simp only [List.map_cons, List.cons_append, RawLine.text]
    have : peekLine ((bytes "#GemCSV" ++ bytes f.version ++ [10]) ::
        List.map RawLine.text (List.map RawLine.other f.head ++ RawLine.sample f.t f.first :: f.rest)) 0
        = some (bytes "#GemCSV" ++ bytes f.version) := by
      simp only [peekLine, List.drop_zero, List.find?_cons, hnb0, Option.map_some, chomp_line]
    rw [this, Option.map_some, v4]
  -- the previous pressure
  obtain ⟨d, hd, hdata⟩ := read_rawLines env p.lines (RawText.lines_valid hp hvp)
    ⟨.sample p.t p.first, by simp [RawText.lines], p.first, rfl⟩
    (by obtain ⟨b, hb, hb2⟩ := hp.meta'; exact ⟨b, by rcases hb with hb | hb <;> simp [RawText.lines, hb], hb2⟩) hlen f.version hvf
  rw [← p.text_lines] at hd
  have hlast : lastPressure d = .ok p.total := by
    have h1 : (d.data.map Prod.snd).getLast? = some (some (p.total : Rat)) := by
      rw [hdata, RawText.steps, List.getLast?_map, ← RawText.pressures, RawText.total_last]
      rfl
    rw [List.getLast?_map, Option.map_eq_some_iff] at h1
    obtain ⟨q, hq, hq2⟩ := h1
    unfold lastPressure
    rw [hq]
    simp only [hq2, pyTrunc_int]
  -- the first sample
  have hsplit : f.lines.map RawLine.text = ((bytes "#GemCSV" ++ bytes f.version ++ [10]) :: f.head.map (· ++ [10])) ++
      lineD f.t f.first :: f.rest.map RawLine.text := by
    unfold RawText.lines
    simp [RawLine.text, Function.comp_def]
  have hhead : ∀ l ∈ (bytes "#GemCSV" ++ bytes f.version ++ [10]) :: f.head.map (· ++ [10]),
      notBlank l = true ∧ l.head? ≠ some 68 := by
    intro l hl
    rcases List.mem_cons.mp hl with rfl | hl
    · exact ⟨hnb0, by simp [bytes]⟩
    · obtain ⟨x, hx, rfl⟩ := List.mem_map.mp hl
      obtain ⟨⟨b, hb, hb2⟩, h2, h3, h4⟩ := hf.head x hx
      refine ⟨(notBlank_iff _).mpr ⟨b, by simp [hb], h2 b hb, hb2⟩, ?_⟩
      cases x with
      | nil => simp at hb
      | cons y x =>
        have := h4 y (by simp)
        simpa using this.1
  have hnbs : notBlank (lineD f.t f.first) = true := (notBlank_iff _).mpr ⟨68, by simp [lineD], by decide, by decide⟩
  obtain ⟨f1, f2⟩ := find_first (rest := f.rest.map RawLine.text) hhead hnbs (by simp [lineD])
  have hch : chomp (lineD f.t f.first) = 68 :: joinFields [.dec f.t, .int f.first] := by
    unfold lineD
    rw [chomp_line]
  unfold appendText
  rw [hver]
  simp only [(diff_versions hvf).2.2.2.1, if_true, hd, Except.bind, hlast]
  rw [hlines, hsplit, f1]
  simp only [f2, Option.elim_some, hch, adjust_lineD]
  congr 1
  have : ∀ (a b : List (List Nat)) (x : List Nat), (a ++ x :: b).drop (a.length + 1) = b := by
    intro a b x
    rw [← List.drop_drop, List.drop_left]
    rfl
  rw [this]
  simp [RawLine.text]

/-- A file `gem_cat` can use (helper). -/
def RawText.Good (f : RawText) : Prop := f.Valid ∧ f.version ∈ ["0.85C", "0.9", "1.10"]

theorem built_pressures {env : CatEnv} {g : List (List Nat)} {c : List Nat} (h : Built env g c) :
    ∀ fs : List RawText, g = fs.map RawText.text → (∀ f ∈ fs, f.Good) → (∀ f ∈ fs, f.lines.length ≤ 65520000) →
    ∃ L : List RawLine, (∀ l ∈ L, l.Valid) ∧ c = (L.map RawLine.text).flatten ∧
      runningSums 0 (L.filterMap RawLine.step) = fs.flatMap RawText.pressures ∧
      (∃ p, fs.getLast? = some p ∧ (L.filterMap RawLine.step).sum = p.total) ∧
      L.length ≤ (fs.map fun f => f.lines.length).sum ∧
      (∃ body, RawLine.other body ∈ L ∧ body.head? = some 77) ∧ ∃ l ∈ L, ∃ s, l.step = some s := by
  induction h with
  | one f =>
    intro fs hg hgood hlen
    cases fs with
    | nil => simp at hg
    | cons r fs =>
      cases fs with
      | cons _ _ => simp at hg
      | nil =>
        simp only [List.map_cons, List.map_nil, List.cons.injEq, and_true] at hg
        obtain ⟨hv, hver⟩ := hgood r (by simp)
        refine ⟨r.lines, RawText.lines_valid hv hver, by rw [hg, r.text_lines], ?_, ⟨r, rfl, ?_⟩, by simp, ?_, ?_⟩
        · rw [RawText.steps]; simp [RawText.pressures]
        · rw [RawText.steps]; simp [RawText.total]
        · obtain ⟨b, hb, hb2⟩ := hv.meta'
          exact ⟨b, by rcases hb with hb | hb <;> simp [RawText.lines, hb], hb2⟩
        · exact ⟨.sample r.t r.first, by simp [RawText.lines], r.first, rfl⟩
  | @add g p c f t h1 h2 h3 ih =>
    intro fs hg hgood hlen
    obtain ⟨fs', l2, rfl, hm1, hm2⟩ := List.map_eq_append_iff.mp hg.symm
    cases l2 with
    | nil => simp at hm2
    | cons r l2 =>
      cases l2 with
      | cons _ _ => simp at hm2
      | nil =>
        simp only [List.map_cons, List.map_nil, List.cons.injEq, and_true] at hm2
        obtain ⟨L, i1, i2, i3, ⟨q, i4, i5⟩, i6, i7, i8⟩ := ih fs' hm1.symm (fun f hf => hgood f (by simp [hf]))
          (fun f hf => hlen f (by simp [hf]))
        have hp : p = q.text := by
          rw [← hm1, List.getLast?_map, i4] at h2
          simpa using h2.symm
        have hq := hgood q (by simp [List.mem_of_getLast? i4])
        have hr := hgood r (by simp)
        have hap := append_good env hr.1 hq.1 hr.2 hq.2 (hlen q (by simp [List.mem_of_getLast? i4]))
        rw [hm2, ← hp, h3] at hap
        simp only [Except.ok.injEq] at hap
        refine ⟨L ++ .sample r.t (r.first - q.total) :: r.rest, ?_, ?_, ?_, ⟨r, by simp, ?_⟩, ?_, ?_, ?_⟩
        · intro l hl
          rcases List.mem_append.mp hl with hl | hl
          · exact i1 l hl
          · rcases List.mem_cons.mp hl with rfl | hl
            · apply lineD_time_length hr.1.time
              have := RawText.total_lt hq.1
              have := RawText.first_lt hr.1
              have e : (10 : Nat) ^ 21 = 10 * 10 ^ 20 := by norm_num
              omega
            · exact hr.1.rest l hl
        · rw [i2, hap]; simp
        · rw [List.filterMap_append, runningSums_append, i3, i5, List.filterMap_cons]
          simp only [RawLine.step, runningSums]
          rw [List.flatMap_append]
          congr 1
          simp only [List.flatMap_cons, List.flatMap_nil, List.append_nil, RawText.pressures, runningSums]
          rw [show (0 : Int) + q.total + (r.first - q.total) = 0 + r.first from by ring]
        · rw [List.filterMap_append, List.sum_append, i5, List.filterMap_cons]
          simp only [RawLine.step, List.sum_cons, RawText.total]
          ring
        · simp only [List.length_append, List.length_cons, List.map_append, List.sum_append, List.map_cons, List.map_nil,
            List.sum_cons, List.sum_nil]
          have : r.rest.length + 1 ≤ r.lines.length := by
            simp [RawText.lines]
            omega
          omega
        · obtain ⟨b, hb, hb2⟩ := i7
          exact ⟨b, by simp [hb], hb2⟩
        · obtain ⟨l, hl, hl2⟩ := i8
          exact ⟨l, by simp [hl], hl2⟩

theorem built_read {env : CatEnv} {fs : List RawText} {c : List Nat} (h : Built env (fs.map RawText.text) c)
    (hgood : ∀ f ∈ fs, f.Good) (hlen : (fs.map fun f => f.lines.length).sum ≤ 65520000)
    {version : String} (hv : version ∈ ["0.85C", "0.9", "1.10"]) :
    ∃ d, env.read c version = .ok d ∧
      d.data.map Prod.snd = (fs.flatMap RawText.pressures).map (fun z : Int => some (z : Rat)) := by
  have hlen' : ∀ f ∈ fs, f.lines.length ≤ 65520000 := by
    intro f hf
    have := List.le_sum_of_mem (List.mem_map_of_mem (f := fun f : RawText => f.lines.length) hf)
    omega
  obtain ⟨L, i1, i2, i3, _, i6, i7, i8⟩ := built_pressures h fs rfl hgood hlen'
  obtain ⟨d, hd, hd2⟩ := read_rawLines env L i1 i8 i7 (by omega) version hv
  exact ⟨d, by rw [i2]; exact hd, by rw [hd2, i3]⟩

theorem good_hasGps {f : RawText} (h : f.Good) : hasGps f.text ≠ none := by
  unfold hasGps
  have : (Gemlog.textLines f.text).filter notBlank ≠ [] := by
    rw [RawText.textLines h.1 h.2]
    have hm : lineD f.t f.first ∈ (f.lines.map RawLine.text).filter notBlank := by
      rw [List.mem_filter]
      refine ⟨List.mem_map.mpr ⟨.sample f.t f.first, by simp [RawText.lines], rfl⟩, ?_⟩
      exact (notBlank_iff _).mpr ⟨68, by simp [lineD], by decide, by decide⟩
    exact List.ne_nil_of_mem hm
  rw [if_neg this]
  simp

theorem catLoop_ok {env : CatEnv} {all : Bool} {sn : List Nat} : ∀ (fs : List RawText) (st : CatState),
    (∀ f ∈ fs, f.Good ∧ f.lines.length ≤ 65520000) →
    (st.outs = [] ∨ ∃ p : RawText, (p.Good ∧ p.lines.length ≤ 65520000) ∧ st.prev = p.text) →
    ∃ st', catLoop env all sn (fs.map RawText.text) st = .ok st' := by
  intro fs
  induction fs with
  | nil => intro st _ _; exact ⟨st, rfl⟩
  | cons f fs ih =>
    intro st hg hp
    have hf := hg f (by simp)
    have hstep : ∃ st1, catStep env all sn st f.text = .ok st1 ∧ st1.prev = f.text := by
      unfold catStep
      by_cases ho : st.outs = []
      · cases all with
        | true => simp [ho]
        | false =>
          cases hgp : hasGps f.text with
          | none => exact absurd hgp (good_hasGps hf.1)
          | some g => cases g <;> simp [ho]
      · rcases hp with hp | ⟨p, hp, hp2⟩
        · exact absurd hp ho
        · have hap := append_good env hf.1.1 hp.1.1 hf.1.2 hp.1.2 hp.2
          cases all with
          | true => simp [ho, hp2, hap, Except.map]
          | false =>
            cases hgp : hasGps f.text with
            | none => exact absurd hgp (good_hasGps hf.1)
            | some g => cases g <;> cases st.prevGps <;> simp [ho, hp2, hap, Except.map]
    obtain ⟨st1, h1, h2⟩ := hstep
    rw [List.map_cons, catLoop, h1]
    exact ih st1 (fun x hx => hg x (by simp [hx])) (.inr ⟨f, hf, h2⟩)

theorem flatten_eq_map {α β : Type} (f : α → β) : ∀ (gs : List (List β)) (l : List α), gs.flatten = l.map f →
    ∃ gs' : List (List α), gs = gs'.map (List.map f) ∧ gs'.flatten = l := by
  intro gs
  induction gs with
  | nil => intro l h; simp at h; exact ⟨[], rfl, by simp [h]⟩
  | cons g gs ih =>
    intro l h
    rw [List.flatten_cons] at h
    obtain ⟨l1, l2, rfl, h1, h2⟩ := List.map_eq_append_iff.mp h.symm
    obtain ⟨gs', rfl, rfl⟩ := ih l2 h2.symm
    exact ⟨l1 :: gs', by simp [h1], by simp⟩

/-- **C44 (missing: files cut off in a line, see `C44_violated_truncated`; format 0.91, see C45).** Merging well-formed raw files of
formats 0.85C, 0.9 and 1.10, of any mixture and number, succeeds, and reading each output gives the absolute pressures of the files of
its group, one after the other. -/
theorem C44_merged_pressures_partial (env : CatEnv) (l : List RawText) (sn : List Nat)
    (hsn : ∃ f, l.head? = some f ∧ env.readSN f.text = some sn)
    (hv : ∀ f ∈ l, f.Valid) (hver : ∀ f ∈ l, f.version ∈ ["0.85C", "0.9", "1.10"])
    (hlen : (l.map fun f => f.head.length + f.rest.length + 2).sum ≤ 65520000) :
    ∃ outs before groups, gemCatFiles env false (l.map RawText.text) = .ok outs ∧ l = before ++ groups.flatten ∧
      (∀ f ∈ before, ¬ HasFix f.text) ∧ Grouped (groups.flatten.map RawText.text) (groups.map (List.map RawText.text)) ∧
      List.Forall₂ (fun g o => ∀ version ∈ ["0.85C", "0.9", "1.10"], ∃ d, env.read o version = .ok d ∧
        d.data.map Prod.snd = (g.flatMap RawText.pressures).map (fun z : Int => some (z : Rat)))
        groups (outs.map Prod.snd) := by
  have e : (fun f : RawText => f.head.length + f.rest.length + 2) = fun f => f.lines.length := by
    funext f
    simp [RawText.lines]
    omega
  rw [e] at hlen
  have hgood : ∀ f ∈ l, f.Good := fun f hf => ⟨hv f hf, hver f hf⟩
  have hone : ∀ f ∈ l, f.lines.length ≤ 65520000 := by
    intro f hf
    have := List.le_sum_of_mem (List.mem_map_of_mem (f := fun f : RawText => f.lines.length) hf)
    omega
  obtain ⟨f0, hf0, hsn⟩ := hsn
  obtain ⟨st', hst⟩ := catLoop_ok (env := env) (all := false) (sn := sn) l ⟨[], [], false⟩ (fun f hf => ⟨hgood f hf, hone f hf⟩)
    (.inl rfl)
  have hok : gemCatFiles env false (l.map RawText.text) = .ok st'.outs := by
    cases l with
    | nil => simp at hf0
    | cons x l =>
      simp only [List.head?_cons, Option.some.injEq] at hf0
      subst hf0
      unfold gemCatFiles
      simp only [List.map_cons, hsn] at hst ⊢
      rw [hst]
      rfl
  obtain ⟨_, be, af, gr, _, h2, h3, _, h5, h6, h7⟩ := gemCat_built env _ _ hok
  obtain ⟨lb, la, hl, hm1, hm2⟩ := List.map_eq_append_iff.mp h2
  obtain ⟨gs, rfl, hgs⟩ := flatten_eq_map RawText.text gr la (by rw [h5.all, hm2])
  refine ⟨st'.outs, lb, gs, hok, by rw [hgs, hl], ?_, by rw [hgs, hm2]; exact h5, ?_⟩
  · intro f hf
    exact h3 _ (by rw [← hm1]; exact List.mem_map_of_mem hf)
  · rw [List.forall₂_map_left_iff] at h7
    have hsub : ∀ g ∈ gs, g.Sublist l := by
      intro g hg
      rw [hl, ← hgs]
      exact (List.sublist_flatten_of_mem hg).trans (List.sublist_append_right _ _)
    generalize st'.outs.map Prod.snd = cs at h7
    clear hok h5 hgs h2 hm2 h6
    induction h7 with
    | nil => exact .nil
    | @cons g c gs cs hb _ ih =>
      refine .cons ?_ (ih fun x hx => hsub x (by simp [hx]))
      intro version hvv
      have hs := hsub g (by simp)
      refine built_read hb (fun f hf => hgood f (hs.subset hf)) ?_ hvv
      have := (hs.map fun f : RawText => f.lines.length).sum_le_sum (by simp)
      omega

theorem catLoop_all {env : CatEnv} {sn : List Nat} : ∀ (fs ps : List (List Nat)) (st st' : CatState) (c : List Nat),
    Built env ps c → ps.getLast? = some st.prev → st.outs = [(bytes "FILE9999." ++ sn, c)] →
    catLoop env true sn fs st = .ok st' →
    ∃ c', Built env (ps ++ fs) c' ∧ st'.outs = [(bytes "FILE9999." ++ sn, c')] := by
  intro fs
  induction fs with
  | nil =>
    intro ps st st' c h1 h2 h3 h4
    simp only [catLoop, Except.ok.injEq] at h4
    exact ⟨c, by simpa using h1, by rw [← h4]; exact h3⟩
  | cons f fs ih =>
    intro ps st st' c h1 h2 h3 h4
    rw [catLoop] at h4
    unfold catStep at h4
    rw [if_pos rfl, if_neg (by simp [h3])] at h4
    cases hap : appendText env f st.prev with
    | error x => simp [hap, Except.map] at h4
    | ok t =>
      simp only [hap, Except.map, h3, addToLast] at h4
      obtain ⟨c', i1, i2⟩ := ih (ps ++ [f]) _ _ (c ++ t) (.add h1 h2 hap) (by simp) rfl h4
      exact ⟨c', by simpa using i1, i2⟩

/-- **C44 (missing: as above).** With `cat_all`, a single file `FILE9999.<serial number>` is written, and reading it gives the
absolute pressures of all files. -/
theorem C44_cat_all_partial (env : CatEnv) (l : List RawText) (sn : List Nat)
    (hsn : ∃ f, l.head? = some f ∧ env.readSN f.text = some sn)
    (hv : ∀ f ∈ l, f.Valid) (hver : ∀ f ∈ l, f.version ∈ ["0.85C", "0.9", "1.10"])
    (hlen : (l.map fun f => f.head.length + f.rest.length + 2).sum ≤ 65520000) :
    ∃ out, gemCatFiles env true (l.map RawText.text) = .ok [(bytes "FILE9999." ++ sn, out)] ∧
      ∀ version ∈ ["0.85C", "0.9", "1.10"], ∃ d, env.read out version = .ok d ∧
        d.data.map Prod.snd = (l.flatMap RawText.pressures).map (fun z : Int => some (z : Rat)) := by
  have e : (fun f : RawText => f.head.length + f.rest.length + 2) = fun f => f.lines.length := by
    funext f
    simp [RawText.lines]
    omega
  rw [e] at hlen
  have hgood : ∀ f ∈ l, f.Good := fun f hf => ⟨hv f hf, hver f hf⟩
  have hone : ∀ f ∈ l, f.lines.length ≤ 65520000 := by
    intro f hf
    have := List.le_sum_of_mem (List.mem_map_of_mem (f := fun f : RawText => f.lines.length) hf)
    omega
  obtain ⟨f0, hf0, hsn⟩ := hsn
  obtain ⟨st', hst⟩ := catLoop_ok (env := env) (all := true) (sn := sn) l ⟨[], [], false⟩ (fun f hf => ⟨hgood f hf, hone f hf⟩)
    (.inl rfl)
  cases l with
  | nil => simp at hf0
  | cons x l =>
    simp only [List.head?_cons, Option.some.injEq] at hf0
    subst hf0
    have hst2 := hst
    rw [List.map_cons, catLoop] at hst2
    unfold catStep at hst2
    simp only [if_true] at hst2
    obtain ⟨c', i1, i2⟩ := catLoop_all (l.map RawText.text) [x.text] _ _ x.text (.one _) rfl rfl hst2
    refine ⟨c', ?_, fun version hvv => built_read (by simpa using i1) hgood hlen hvv⟩
    unfold gemCatFiles
    simp only [List.map_cons, hsn] at hst ⊢
    rw [hst]
    simp [Except.map, i2]

theorem Built.appends {env : CatEnv} {g : List (List Nat)} {c : List Nat} (h : Built env g c) :
    ∀ x f y, g = x ++ f :: y → x ≠ [] → ∃ p t, appendText env f p = .ok t := by
  induction h with
  | one f =>
    intro x f' y e hx
    cases x with
    | nil => exact absurd rfl hx
    | cons a x => simp at e
  | @add g p c f t h1 h2 h3 ih =>
    intro x f' y e hx
    rcases List.eq_nil_or_concat y with rfl | ⟨y', z, rfl⟩
    · have := List.append_inj_right' e (by simp)
      simp only [List.cons.injEq, and_true] at this
      exact ⟨p, t, this ▸ h3⟩
    · rw [List.concat_eq_append] at e
      have e2 : g ++ [f] = (x ++ f' :: y') ++ [z] := by simpa using e
      exact ih x f' y' (List.append_inj_left' e2 (by simp)) hx

theorem append_091 (env : CatEnv) (r p : List Nat) :
    ∀ t, appendText env (bytes "#GemCSV0.91" ++ 10 :: r) p ≠ .ok t := by
  intro t h
  have hv : formatVersion (bytes "#GemCSV0.91" ++ 10 :: r) = some "0.91" := by
    have e : bytes "#GemCSV0.91" = [35, 71, 101, 109, 67, 83, 86, 48, 46, 57, 49] := by decide +kernel
    rw [e]
    unfold formatVersion Gemlog.textLines
    simp only [List.cons_append, List.nil_append, textLinesGo]
    simp only [if_neg (show ¬ (35 : Nat) = 10 by decide), if_neg (show ¬ (71 : Nat) = 10 by decide),
      if_neg (show ¬ (101 : Nat) = 10 by decide), if_neg (show ¬ (109 : Nat) = 10 by decide),
      if_neg (show ¬ (67 : Nat) = 10 by decide), if_neg (show ¬ (83 : Nat) = 10 by decide),
      if_neg (show ¬ (86 : Nat) = 10 by decide), if_neg (show ¬ (48 : Nat) = 10 by decide),
      if_neg (show ¬ (46 : Nat) = 10 by decide), if_neg (show ¬ (57 : Nat) = 10 by decide),
      if_neg (show ¬ (49 : Nat) = 10 by decide), if_true]
    rw [peekLine, List.drop_zero, List.find?_cons, show notBlank [35, 71, 101, 109, 67, 83, 86, 48, 46, 57, 49, 10] = true by decide]
    simp only [Option.map_some, Option.some.injEq]
    decide +kernel
  unfold appendText at h
  rw [hv] at h
  simp only [show ("0.91" : String) ∈ ["0.85C", "0.9", "0.91", "1.10"] by decide, if_true] at h
  cases hr : env.read p "0.91" with
  | error x => simp [hr, Except.bind] at h
  | ok d => exact C13_violated _ _ _ _ d hr

/-- **C45 is violated** for the documented differenced format 0.91: whenever a file of this format has to be appended, merging fails.
With `cat_all` that is every such file but the first one. -/
theorem C45_violated_cat_all (env : CatEnv) (before after : List (List Nat)) (r : List Nat) (hb : before ≠ [])
    (outs : List (List Nat × List Nat)) :
    gemCatFiles env true (before ++ (bytes "#GemCSV0.91" ++ 10 :: r) :: after) ≠ .ok outs := by
  intro h
  cases before with
  | nil => exact absurd rfl hb
  | cons x before =>
    unfold gemCatFiles at h
    simp only [List.cons_append] at h
    cases hsn : env.readSN x with
    | none => simp [hsn] at h
    | some sn =>
      simp only [hsn] at h
      rw [catLoop] at h
      unfold catStep at h
      simp only [if_true] at h
      cases hl : catLoop env true sn (before ++ (bytes "#GemCSV0.91" ++ 10 :: r) :: after)
          ⟨[(bytes "FILE9999." ++ sn, x)], x, false⟩ with
      | error e => simp [hl, Except.map] at h
      | ok st' =>
        obtain ⟨c', i1, _⟩ := catLoop_all _ [x] _ _ x (.one _) rfl rfl hl
        obtain ⟨p, t, hp⟩ := i1.appends (x :: before) (bytes "#GemCSV0.91" ++ 10 :: r) after (by simp) (by simp)
        exact append_091 env r p t hp

/-- **C45 is violated**, default mode: a file of format 0.91 without a fix, behind a file with one, makes merging fail. -/
theorem C45_violated (env : CatEnv) (before after : List (List Nat)) (r : List Nat) (hb : ∃ f ∈ before, HasFix f)
    (hf : ¬ HasFix (bytes "#GemCSV0.91" ++ 10 :: r)) (outs : List (List Nat × List Nat)) :
    gemCatFiles env false (before ++ (bytes "#GemCSV0.91" ++ 10 :: r) :: after) ≠ .ok outs := by
  intro h
  obtain ⟨_, be, af, gr, _, h2, h3, h4, h5, h6, h7⟩ := gemCat_built env _ _ h
  have hmem : (bytes "#GemCSV0.91" ++ 10 :: r) ∈ af := by
    obtain ⟨f, hf1, hf2⟩ := hb
    have e := h2
    rw [List.append_eq_append_iff] at e
    rcases e with ⟨u, hu, hu2⟩ | ⟨u, hu, hu2⟩
    · have : f ∈ be := by rw [hu]; simp [hf1]
      exact absurd hf2 (h3 f this)
    · rw [hu2]; simp
  rw [← h5.all] at hmem
  obtain ⟨g, hg, hg2⟩ := List.mem_flatten.mp hmem
  obtain ⟨c, hc⟩ : ∃ c, Built env g c := by
    clear h5 hmem h h6
    generalize outs.map Prod.snd = cs at h7
    induction h7 with
    | nil => simp at hg
    | @cons a b _ _ hb _ ih =>
      rcases List.mem_cons.mp hg with rfl | hg
      · exact ⟨_, hb⟩
      · exact ih hg
  obtain ⟨x, y, rfl⟩ := List.append_of_mem hg2
  cases x with
  | nil =>
    obtain ⟨f, hf1, hf2⟩ := h5.starts _ hg
    simp only [List.nil_append, List.head?_cons, Option.some.injEq] at hf1
    exact hf (hf1 ▸ hf2)
  | cons a x =>
    obtain ⟨p, t, hp⟩ := hc.appends (a :: x) _ y rfl (by simp)
    exact append_091 env r p t hp

end Gemlog
