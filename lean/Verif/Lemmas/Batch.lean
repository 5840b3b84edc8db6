import Verif.Model.Batch
import Verif.Props.Names

/-! # Conversions running side by side -/

namespace Gemlog

/-- The files a conversion may touch: its summary files (`SNgps_nnn.txt`, `SNmetadata_nnn.txt`) and the converted files
with its trace identifier. -/
def Owns {γ : Type} (j : Proc γ) (key : Folder × List Nat) : Prop :=
  match key.1 with
  | .gps => ∃ n, key.2 = summaryName .gps j.sn n
  | .metadata => ∃ n, key.2 = summaryName .metadata j.sn n
  | .converted => ∃ a, Datable a ∧ key.2 = convertedName j.id j.fmt a

/-- A conversion as it is started: segment starts have four-digit years, and folders are made only after looking. -/
structure Proc.Ok {γ : Type} (j : Proc γ) : Prop where
  datable : ∀ a c, Instr.segment a c ∈ j.todo → Datable a
  gps : ∀ f, j.gpsFile = some f → ∃ n, f = summaryName .gps j.sn n
  metadata : ∀ f, j.metaFile = some f → ∃ n, f = summaryName .metadata j.sn n

theorem Disk.get_put {γ : Type} (d : Disk γ) (k key : Folder × List Nat) (c : List γ) :
    (d.put k c).get key = if k = key then some c else d.get key := by
  unfold Disk.get Disk.put
  simp only [List.find?_cons]
  by_cases h : k = key <;> simp [h]

theorem Disk.mem_names {γ : Type} (d : Disk γ) (k : Folder) (n : List Nat) : n ∈ d.names k ↔ (d.get (k, n)).isSome := by
  unfold Disk.names Disk.get
  simp only [List.mem_map, List.mem_filter, decide_eq_true_eq, Option.isSome_map, List.find?_isSome]
  constructor
  · rintro ⟨f, ⟨hf, hk⟩, hn⟩
    exact ⟨f, hf, by ext <;> simp [hk, hn]⟩
  · rintro ⟨f, hf, hk⟩
    exact ⟨f, ⟨hf, by rw [hk]⟩, by rw [hk]⟩

theorem makeFilename_congr (e e' : List (List Nat)) (dir sn ty : List Nat)
    (h : ∀ n, indexedName dir sn ty n ∈ e ↔ indexedName dir sn ty n ∈ e') :
    makeFilename e dir sn ty = makeFilename e' dir sn ty := by
  have hs := fun x : List (List Nat) => nameLoop_spec x (indexedName dir sn ty) (indexedName_injective dir sn ty)
    (x.length + 1) 0 (by omega) (by omega)
  obtain ⟨k, hk, h1, h2⟩ := hs e
  obtain ⟨k', hk', h1', h2'⟩ := hs e'
  have : k = k' := by
    rcases Nat.lt_trichotomy k k' with hlt | heq | hgt
    · exact absurd ((h k).2 (h2' k hlt)) h1
    · exact heq
    · exact absurd ((h k').1 (h2 k' hgt)) h1'
  unfold makeFilename
  rw [hk, hk', this]

theorem makeFilename_form (e : List (List Nat)) (dir sn ty : List Nat) : ∃ n, makeFilename e dir sn ty = some (indexedName dir sn ty n) := by
  obtain ⟨k, hk, _, _⟩ := nameLoop_spec e (indexedName dir sn ty) (indexedName_injective dir sn ty)
    (e.length + 1) 0 (by omega) (by omega)
  exact ⟨k, hk⟩

/-- Two disks look the same to a conversion. -/
def Same {γ : Type} (j : Proc γ) (d d' : Disk γ) : Prop := ∀ key, Owns j key → d.get key = d'.get key

theorem chooseName_congr {γ : Type} (j : Proc γ) {d d' : Disk γ} (h : Same j d d') :
    chooseName d .gps j.sn = chooseName d' .gps j.sn ∧ chooseName d .metadata j.sn = chooseName d' .metadata j.sn := by
  refine ⟨?_, ?_⟩
  · refine makeFilename_congr _ _ _ _ _ fun n => ?_
    have := h (.gps, summaryName .gps j.sn n) ⟨n, rfl⟩
    simp only [summaryName] at this
    rw [Disk.mem_names, Disk.mem_names, this]
  · refine makeFilename_congr _ _ _ _ _ fun n => ?_
    have := h (.metadata, summaryName .metadata j.sn n) ⟨n, rfl⟩
    simp only [summaryName] at this
    rw [Disk.mem_names, Disk.mem_names, this]

theorem Proc.Ok.owns_file {γ : Type} {j : Proc γ} (hj : j.Ok) {k : Folder} {f : List Nat} (h : j.file k = some f) : Owns j (k, f) := by
  cases k
  · exact hj.gps f h
  · exact hj.metadata f h
  · simp [Proc.file] at h

/-- The identity of a conversion does not change. -/
theorem act_identity {γ : Type} (x : Instr γ) (j : Proc γ) (d : Disk γ) :
    (act x j d).1.sn = j.sn ∧ (act x j d).1.id = j.id ∧ (act x j d).1.fmt = j.fmt ∧ (act x j d).1.todo = j.todo := by
  unfold act
  split <;> (try split) <;> exact ⟨rfl, rfl, rfl, rfl⟩

theorem act_dirs {γ : Type} (x : Instr γ) (j : Proc γ) (d : Disk γ) : (act x j d).2.dirs = d.dirs := by
  unfold act
  split <;> (try split) <;> rfl

theorem act_frame {γ : Type} (x : Instr γ) (j : Proc γ) (hj : j.Ok) (hx : ∀ a c, x = .segment a c → Datable a) (d : Disk γ)
    (key : Folder × List Nat) (h : ¬ Owns j key) : (act x j d).2.get key = d.get key := by
  unfold act
  split
  · rfl
  · rfl
  · split
    · rename_i f hf
      rw [Disk.get_put, if_neg]
      intro e; rw [← e] at h; exact h (hj.owns_file hf)
    · rfl
  · split
    · rename_i f hf
      rw [Disk.get_put, if_neg]
      intro e; rw [← e] at h; exact h (hj.owns_file hf)
    · rfl
  · rename_i a c
    rw [Disk.get_put, if_neg]
    intro e; rw [← e] at h
    exact h ⟨a, hx a c rfl, rfl⟩
  · rfl

theorem act_local {γ : Type} (x : Instr γ) (j : Proc γ) (hj : j.Ok) (d d' : Disk γ) (h : Same j d d') :
    (act x j d).1 = (act x j d').1 ∧ Same j (act x j d).2 (act x j d').2 := by
  obtain ⟨c1, c2⟩ := chooseName_congr j h
  unfold act
  split
  · exact ⟨by rw [c1], h⟩
  · exact ⟨by rw [c2], h⟩
  · cases hf : j.file _ with
    | none => exact ⟨rfl, h⟩
    | some f =>
      refine ⟨rfl, fun key hk => ?_⟩
      rw [Disk.get_put, Disk.get_put, h key hk]
  · cases hf : j.file _ with
    | none => exact ⟨rfl, h⟩
    | some f =>
      refine ⟨rfl, fun key hk => ?_⟩
      rw [Disk.get_put, Disk.get_put, h key hk, h _ (hj.owns_file hf)]
  · refine ⟨rfl, fun key hk => ?_⟩
    rw [Disk.get_put, Disk.get_put, h key hk]
  · exact ⟨rfl, h⟩

theorem act_ok {γ : Type} (x : Instr γ) (j : Proc γ) (hj : j.Ok) (d : Disk γ) : (act x j d).1.Ok := by
  unfold act
  split
  · refine ⟨hj.datable, ?_, hj.metadata⟩
    intro f hf
    obtain ⟨n, hn⟩ := makeFilename_form (d.names .gps) (bytes "gps") j.sn (bytes "gps")
    simp only [chooseName] at hf
    rw [hn] at hf
    exact ⟨n, (Option.some.inj hf).symm⟩
  · refine ⟨hj.datable, hj.gps, ?_⟩
    intro f hf
    obtain ⟨n, hn⟩ := makeFilename_form (d.names .metadata) (bytes "metadata") j.sn (bytes "metadata")
    simp only [chooseName] at hf
    rw [hn] at hf
    exact ⟨n, (Option.some.inj hf).symm⟩
  · split <;> exact hj
  · split <;> exact hj
  · exact hj
  · exact hj

/-- The identifier can be read off the file name. -/
theorem convertedName_id_injective {i j f g : List Nat} {a b : Int} (ha : Datable a) (hb : Datable b) (hf : f = g)
    (h : convertedName i f a = convertedName j g b) : i = j := by
  subst hf
  unfold convertedName at h
  simp only [List.append_assoc] at h
  obtain ⟨a1, a2, a3, a4, a5, _⟩ := dateOfDay_spec (a / 100 / 86400)
  obtain ⟨b1, b2, b3, b4, b5, _⟩ := dateOfDay_spec (b / 100 / 86400)
  have ma := monthLen_pos (dateOfDay (a / 100 / 86400)).year (dateOfDay (a / 100 / 86400)).month
  have mb := monthLen_pos (dateOfDay (b / 100 / 86400)).year (dateOfDay (b / 100 / 86400)).month
  obtain ⟨ha1, ha2⟩ := ha
  obtain ⟨hb1, hb2⟩ := hb
  obtain ⟨e1, h⟩ := pad_cancel (k := 3) (by omega) (by omega) h
  have h := List.append_cancel_left h
  obtain ⟨e2, h⟩ := pad_cancel (k := 1) (by omega) (by omega) h
  have h := List.append_cancel_left h
  obtain ⟨e3, h⟩ := pad_cancel (k := 1) (by omega) (by omega) h
  have h := List.append_cancel_left h
  obtain ⟨e4, h⟩ := pad_cancel (k := 1) (by omega) (by omega) h
  have h := List.append_cancel_left h
  obtain ⟨e5, h⟩ := pad_cancel (k := 1) (by omega) (by omega) h
  have h := List.append_cancel_left h
  obtain ⟨e6, h⟩ := pad_cancel (k := 1) (by omega) (by omega) h
  have h := List.append_cancel_left h
  exact List.append_cancel_right h

/-- Different conversions touch different files. -/
theorem owns_disjoint {γ : Type} {i j : Proc γ} (hfmt : i.fmt = j.fmt) (hlen : i.sn.length = j.sn.length)
    (hsn : i.sn ≠ j.sn) (hid : i.id ≠ j.id) (key : Folder × List Nat) (hi : Owns i key) : ¬ Owns j key := by
  obtain ⟨k, name⟩ := key
  intro hj
  cases k
  · obtain ⟨n, hn⟩ := hi
    obtain ⟨m, hm⟩ := hj
    have h := hn.symm.trans hm
    simp only [summaryName, indexedName, List.append_assoc] at h
    have h1 := List.append_cancel_left (List.append_cancel_left h)
    exact hsn (List.append_inj h1 hlen).1
  · obtain ⟨n, hn⟩ := hi
    obtain ⟨m, hm⟩ := hj
    have h := hn.symm.trans hm
    simp only [summaryName, indexedName, List.append_assoc] at h
    have h1 := List.append_cancel_left (List.append_cancel_left h)
    exact hsn (List.append_inj h1 hlen).1
  · obtain ⟨a, ha, hn⟩ := hi
    obtain ⟨b, hb, hm⟩ := hj
    have h := hn.symm.trans hm
    exact hid (convertedName_id_injective ha hb hfmt h)

/-! ## What a conversion does if nothing is in its way -/

/-- The disk after a conversion whose folders can be made. -/
def effect {γ : Type} : List (Instr γ) → Proc γ → Disk γ → Disk γ
  | [], _, d => d
  | .isdir _ :: l, j, d => effect l { j with todo := l } d
  | .mkdir _ :: l, j, d => effect l { j with todo := l } d
  | .fail :: _, _, d => d
  | x :: l, j, d => effect l (act x { j with todo := l } d).1 (act x { j with todo := l } d).2

/-- The rest of a conversion is a conversion. -/
theorem Proc.Ok.tail {γ : Type} {j : Proc γ} (hj : j.Ok) {l : List (Instr γ)} (h : ∀ x ∈ l, x ∈ j.todo) :
    ({ j with todo := l } : Proc γ).Ok :=
  ⟨fun a c hc => hj.datable a c (h _ hc), hj.gps, hj.metadata⟩

theorem Same.congr {γ : Type} {i j : Proc γ} {d d' : Disk γ} (h : Same i d d') (hsn : j.sn = i.sn) (hid : j.id = i.id)
    (hf : j.fmt = i.fmt) : Same j d d' := by
  intro key hk
  apply h
  unfold Owns at hk ⊢
  rw [hsn, hid, hf] at hk
  exact hk

theorem effect_local {γ : Type} : ∀ (l : List (Instr γ)) (j : Proc γ) (d d' : Disk γ), j.todo = l → j.Ok → Same j d d' →
    Same j (effect l j d) (effect l j d') := by
  intro l
  induction l with
  | nil => intro j d d' _ _ h; exact h
  | cons x l ih =>
    intro j d d' hl hj h
    have hj' : ({ j with todo := l } : Proc γ).Ok := hj.tail (by rw [hl]; intro y hy; exact List.mem_cons_of_mem _ hy)
    have h' : Same ({ j with todo := l } : Proc γ) d d' := h.congr rfl rfl rfl
    have hact : ∀ x : Instr γ, Same j (effect l (act x { j with todo := l } d).1 (act x { j with todo := l } d).2)
        (effect l (act x { j with todo := l } d').1 (act x { j with todo := l } d').2) := by
      intro x
      obtain ⟨e, hs⟩ := act_local x _ hj' d d' h'
      obtain ⟨i1, i2, i3, i4⟩ := act_identity x { j with todo := l } d'
      rw [e]
      exact (ih _ _ _ i4 (act_ok x _ hj' d') (hs.congr i1 i2 i3)).congr i1.symm i2.symm i3.symm
    cases x with
    | isdir k => exact (ih _ _ _ rfl hj' h').congr rfl rfl rfl
    | mkdir k => exact (ih _ _ _ rfl hj' h').congr rfl rfl rfl
    | fail => exact h
    | choose k => exact hact _
    | start k c => exact hact _
    | extend k c => exact hact _
    | segment a c => exact hact _

/-- Does the instruction write to a file? -/
def Instr.writes {γ : Type} : Instr γ → Prop
  | .start _ _ => True
  | .extend _ _ => True
  | .segment _ _ => True
  | _ => False

/-- Does the instruction deal with folders? -/
def Instr.folder {γ : Type} : Instr γ → Prop
  | .isdir _ => True
  | .mkdir _ => True
  | _ => False

theorem step_identity {γ : Type} (j : Proc γ) (d : Disk γ) :
    (stepProc j d).1.sn = j.sn ∧ (stepProc j d).1.id = j.id ∧ (stepProc j d).1.fmt = j.fmt := by
  have ha : ∀ (x : Instr γ) l, (act x { j with todo := l } d).1.sn = j.sn ∧ (act x { j with todo := l } d).1.id = j.id ∧
      (act x { j with todo := l } d).1.fmt = j.fmt := by
    intro x l
    obtain ⟨h1, h2, h3, _⟩ := act_identity x { j with todo := l } d
    exact ⟨h1, h2, h3⟩
  rw [stepProc]
  split
  · exact ⟨rfl, rfl, rfl⟩
  · exact ⟨rfl, rfl, rfl⟩
  · split <;> exact ⟨rfl, rfl, rfl⟩
  · exact ⟨rfl, rfl, rfl⟩
  · exact ha _ _

theorem owns_congr {γ : Type} {i j : Proc γ} (hsn : j.sn = i.sn) (hid : j.id = i.id) (hf : j.fmt = i.fmt)
    (key : Folder × List Nat) : Owns j key ↔ Owns i key := by
  unfold Owns
  rw [hsn, hid, hf]

theorem step_ok {γ : Type} {j : Proc γ} (hj : j.Ok) (d : Disk γ) : (stepProc j d).1.Ok := by
  rw [stepProc]
  split
  · exact hj
  · rename_i k l h
    split
    · exact hj.tail (by rw [h]; intro x hx; exact List.mem_cons_of_mem _ hx)
    · refine ⟨fun a c hc => hj.datable a c ?_, hj.gps, hj.metadata⟩
      rw [h]
      rcases List.mem_cons.mp hc with hc | hc
      · cases hc
      · exact List.mem_cons_of_mem _ hc
  · rename_i k l h
    split
    · exact hj.tail (by simp)
    · exact hj.tail (by rw [h]; intro x hx; exact List.mem_cons_of_mem _ hx)
  · exact hj.tail (by simp)
  · rename_i x l _ _ _ h
    exact act_ok _ _ (hj.tail (by rw [h]; intro x hx; exact List.mem_cons_of_mem _ hx)) d

theorem step_frame {γ : Type} {j : Proc γ} (hj : j.Ok) (d : Disk γ) (key : Folder × List Nat) (h : ¬ Owns j key) :
    (stepProc j d).2.get key = d.get key := by
  rw [stepProc]
  split
  · rfl
  · rfl
  · split <;> rfl
  · rfl
  · rename_i x l _ _ _ ht
    refine act_frame x _ (hj.tail (by rw [ht]; intro y hy; exact List.mem_cons_of_mem _ hy)) ?_ d key ?_
    · intro a c hx
      apply hj.datable a c
      rw [ht, hx]; exact List.mem_cons_self ..
    · exact h

/-- A step of a conversion: either what remains to be done stays the same, or the conversion gives up at a folder. -/
theorem step_effect {γ : Type} (j : Proc γ) (hj : j.Ok) (d : Disk γ) :
    Same j (effect (stepProc j d).1.todo (stepProc j d).1 (stepProc j d).2) (effect j.todo j d) ∨
    ((stepProc j d).1.todo = [] ∧ (stepProc j d).2 = d ∧ ∃ k l, j.todo = .mkdir k :: l ∧ k ∈ d.dirs) := by
  rw [stepProc]
  split
  · rename_i h; left; rw [h]; exact fun _ _ => rfl
  · rename_i k l h
    left
    split
    · rw [h]; exact fun _ _ => rfl
    · rw [h]; exact fun _ _ => rfl
  · rename_i k l h
    by_cases hk : k ∈ d.dirs
    · right
      rw [if_pos hk]
      exact ⟨rfl, rfl, k, l, h, hk⟩
    · left
      rw [if_neg hk, h]
      have hj' : ({ j with todo := l } : Proc γ).Ok := hj.tail (by rw [h]; intro y hy; exact List.mem_cons_of_mem _ hy)
      exact (effect_local l { j with todo := l } { d with dirs := k :: d.dirs } d rfl hj' fun _ _ => rfl).congr
        (j := j) rfl rfl rfl
  · rename_i l h; left; rw [h]; exact fun _ _ => rfl
  · rename_i x l h1 h2 h3 h
    left
    obtain ⟨_, _, _, i4⟩ := act_identity x { j with todo := l } d
    rw [i4, h]
    have : effect (x :: l) j d = effect l (act x { j with todo := l } d).1 (act x { j with todo := l } d).2 := by
      cases x with
      | isdir k => exact absurd rfl (h1 k)
      | mkdir k => exact absurd rfl (h2 k)
      | fail => exact absurd rfl h3
      | choose k => rfl
      | start k c => rfl
      | extend k c => rfl
      | segment a c => rfl
    rw [this]
    exact fun _ _ => rfl

/-! ## Schedules -/

theorem Same.trans {γ : Type} {j : Proc γ} {a b c : Disk γ} (h : Same j a b) (h' : Same j b c) : Same j a c :=
  fun key hk => (h key hk).trans (h' key hk)

/-- Conversions that do not share files: the same format, serial numbers of the same length, different serial numbers and
identifiers. -/
def Apart {γ : Type} (i j : Proc γ) : Prop :=
  i.fmt = j.fmt ∧ i.sn.length = j.sn.length ∧ i.sn ≠ j.sn ∧ i.id ≠ j.id

/-- Folders are dealt with before anything is written. -/
def FoldersFirst {γ : Type} (l : List (Instr γ)) : Prop := l.Pairwise fun x y => x.writes → ¬ y.folder

/-- A step that does not write leaves the files. -/
theorem step_nowrite {γ : Type} (j : Proc γ) (d : Disk γ) (h : ∀ x l, j.todo = x :: l → ¬ x.writes) :
    (stepProc j d).2.files = d.files := by
  rw [stepProc]
  split
  · rfl
  · rfl
  · split <;> rfl
  · rfl
  · rename_i x l h1 h2 h3 ht
    have := h _ _ ht
    cases x with
    | isdir k => rfl
    | mkdir k => rfl
    | fail => rfl
    | choose k => cases k <;> rfl
    | start k c => exact absurd trivial this
    | extend k c => exact absurd trivial this
    | segment a c => exact absurd trivial this

theorem step_todo {γ : Type} (j : Proc γ) (d : Disk γ) :
    (stepProc j d).1.todo = [] ∨ (∃ x, j.todo = x :: (stepProc j d).1.todo) ∨
    (∃ k l, j.todo = .isdir k :: l ∧ (stepProc j d).1.todo = .mkdir k :: l ∧ k ∉ d.dirs) := by
  rw [stepProc]
  split
  · rename_i h; left; exact h
  · rename_i k l h
    by_cases hk : k ∈ d.dirs
    · right; left; rw [if_pos hk]; exact ⟨_, h⟩
    · right; right; rw [if_neg hk]; exact ⟨k, l, h, rfl, hk⟩
  · rename_i k l h
    by_cases hk : k ∈ d.dirs
    · left; rw [if_pos hk]
    · right; left; rw [if_neg hk]; exact ⟨_, h⟩
  · left; rfl
  · rename_i x l _ _ _ h
    right; left
    obtain ⟨_, _, _, i4⟩ := act_identity x { j with todo := l } d
    rw [i4]; exact ⟨_, h⟩

/-- What holds of a conversion at work, `j` at the beginning with disk `d`, now `j'` with disk `d'`: it is on its way, and
has not written anything as long as folders have to be dealt with; or it gave up without having written anything, which
takes `P`. -/
structure OnWay {γ : Type} (P : Prop) (j : Proc γ) (d : Disk γ) (j' : Proc γ) (d' : Disk γ) : Prop where
  sn : j'.sn = j.sn
  id : j'.id = j.id
  fmt : j'.fmt = j.fmt
  ok : j'.Ok
  first : FoldersFirst j'.todo
  state : (Same j (effect j'.todo j' d') (effect j.todo j d) ∧ ((∀ x ∈ j'.todo, ¬ x.folder) ∨ Same j d' d)) ∨
    (P ∧ j'.todo = [] ∧ Same j d' d)

theorem OnWay.start {γ : Type} {P : Prop} {j : Proc γ} {d : Disk γ} (hj : j.Ok) (hf : FoldersFirst j.todo) : OnWay P j d j d :=
  ⟨rfl, rfl, rfl, hj, hf, .inl ⟨fun _ _ => rfl, .inr fun _ _ => rfl⟩⟩

theorem OnWay.step {γ : Type} {P : Prop} {j j' : Proc γ} {d d' : Disk γ} (h : OnWay P j d j' d')
    (hP : ∀ k l, j'.todo = .mkdir k :: l → k ∈ d'.dirs → P) : OnWay P j d (stepProc j' d').1 (stepProc j' d').2 := by
  obtain ⟨s1, s2, s3⟩ := step_identity j' d'
  have hfirst : FoldersFirst (stepProc j' d').1.todo := by
    have hf := h.first
    rcases step_todo j' d' with e | ⟨x, e⟩ | ⟨k, l, e, e', _⟩
    · rw [e]; exact List.Pairwise.nil
    · unfold FoldersFirst at hf; rw [e] at hf; exact (List.pairwise_cons.mp hf).2
    · unfold FoldersFirst at hf ⊢
      rw [e] at hf; rw [e']
      refine List.pairwise_cons.mpr ⟨?_, (List.pairwise_cons.mp hf).2⟩
      intro y _ hw; exact False.elim hw
  refine ⟨s1.trans h.sn, s2.trans h.id, s3.trans h.fmt, step_ok h.ok d', hfirst, ?_⟩
  rcases h.state with ⟨he, hw⟩ | ⟨hp, ht, hd⟩
  · rcases step_effect j' h.ok d' with hs | ⟨ht, hdd, k, l, hm, hk⟩
    · left
      refine ⟨(hs.congr h.sn.symm h.id.symm h.fmt.symm).trans he, ?_⟩
      have hall : (∀ x ∈ j'.todo, ¬ x.folder) → ∀ x ∈ (stepProc j' d').1.todo, ¬ x.folder := by
        intro hw x hx
        rcases step_todo j' d' with e | ⟨y, e⟩ | ⟨k, l, e, e', _⟩
        · rw [e] at hx; simp at hx
        · exact hw x (by rw [e]; exact List.mem_cons_of_mem _ hx)
        · exact absurd trivial (hw (.isdir k) (by rw [e]; exact List.mem_cons_self ..))
      rcases hw with hw | hw
      · exact .inl (hall hw)
      · by_cases hwr : ∀ x l, j'.todo = x :: l → ¬ x.writes
        · right
          intro key hk
          rw [← hw key hk]
          unfold Disk.get
          rw [step_nowrite j' d' hwr]
        · left
          push Not at hwr
          obtain ⟨x, l, hx, hwx⟩ := hwr
          refine hall ?_
          intro y hy
          rw [hx] at hy
          rcases List.mem_cons.mp hy with rfl | hy
          · intro hfo; cases y <;> simp [Instr.writes, Instr.folder] at hwx hfo
          · have hf := h.first
            unfold FoldersFirst at hf
            rw [hx] at hf
            exact (List.pairwise_cons.mp hf).1 y hy hwx
    · right
      refine ⟨hP k l hm hk, ht, ?_⟩
      rw [hdd]
      rcases hw with hw | hw
      · exact absurd trivial (hw (.mkdir k) (by rw [hm]; exact List.mem_cons_self ..))
      · exact hw
  · right
    have : stepProc j' d' = (j', d') := by rw [stepProc, ht]
    rw [this]; exact ⟨hp, ht, hd⟩

/-- Other conversions do not matter. -/
theorem OnWay.frame {γ : Type} {P : Prop} {j j' : Proc γ} {d d' d'' : Disk γ} (h : OnWay P j d j' d') (hs : Same j d'' d') :
    OnWay P j d j' d'' := by
  refine ⟨h.sn, h.id, h.fmt, h.ok, h.first, ?_⟩
  rcases h.state with ⟨he, hw⟩ | ⟨hp, ht, hd⟩
  · left
    refine ⟨?_, hw.imp_right fun hw => hs.trans hw⟩
    have := effect_local j'.todo j' d'' d' rfl h.ok (hs.congr h.sn h.id h.fmt)
    exact (this.congr h.sn.symm h.id.symm h.fmt.symm).trans he
  · exact .inr ⟨hp, ht, hs.trans hd⟩

/-- All conversions of a batch are on their way. -/
def AllOnWay {γ : Type} (P : Prop) (js : List (Proc γ)) (d : Disk γ) (s : List (Proc γ) × Disk γ) : Prop :=
  List.Forall₂ (fun j j' => OnWay P j d j' s.2) js s.1

theorem forall₂_get {α β : Type} {R : α → β → Prop} {l : List α} {l' : List β} (h : List.Forall₂ R l l') {i : Nat} {b : β}
    (hb : l'[i]? = some b) : ∃ a, l[i]? = some a ∧ R a b := by
  induction h generalizing i with
  | nil => simp at hb
  | cons hr _ ih =>
    cases i with
    | zero => simp at hb; subst hb; exact ⟨_, rfl, hr⟩
    | succ i => simpa using ih (by simpa using hb)

theorem forall₂_get' {α β : Type} {R : α → β → Prop} {l : List α} {l' : List β} (h : List.Forall₂ R l l') {i : Nat} {a : α}
    (ha : l[i]? = some a) : ∃ b, l'[i]? = some b ∧ R a b := by
  induction h generalizing i with
  | nil => simp at ha
  | cons hr _ ih =>
    cases i with
    | zero => simp at ha; subst ha; exact ⟨_, rfl, hr⟩
    | succ i => simpa using ih (by simpa using ha)

theorem forall₂_of_get {α β : Type} {R : α → β → Prop} : ∀ {l : List α} {l' : List β}, l.length = l'.length →
    (∀ (i : Nat) a b, l[i]? = some a → l'[i]? = some b → R a b) → List.Forall₂ R l l'
  | [], [], _, _ => .nil
  | [], _ :: _, h, _ => by simp at h
  | _ :: _, [], h, _ => by simp at h
  | a :: l, b :: l', h, hr => .cons (hr 0 a b rfl rfl)
      (forall₂_of_get (by simpa using h) fun i a b ha hb => hr (i + 1) a b (by simpa using ha) (by simpa using hb))

theorem pairwise_get {α : Type} {R : α → α → Prop} {l : List α} (h : l.Pairwise R) (hs : ∀ a b, R a b → R b a) {i k : Nat}
    {a b : α} (hik : i ≠ k) (ha : l[i]? = some a) (hb : l[k]? = some b) : R a b := by
  obtain ⟨hi, rfl⟩ := List.getElem?_eq_some_iff.mp ha
  obtain ⟨hk, rfl⟩ := List.getElem?_eq_some_iff.mp hb
  rcases Nat.lt_or_gt_of_ne hik with h1 | h1
  · exact List.pairwise_iff_getElem.mp h i k hi hk h1
  · exact hs _ _ (List.pairwise_iff_getElem.mp h k i hk hi h1)

theorem Apart.symm {γ : Type} {i j : Proc γ} (h : Apart i j) : Apart j i :=
  ⟨h.1.symm, h.2.1.symm, h.2.2.1.symm, h.2.2.2.symm⟩

theorem AllOnWay.stepAt {γ : Type} {P : Prop} {js : List (Proc γ)} {d : Disk γ} {s : List (Proc γ) × Disk γ} (h : AllOnWay P js d s)
    (hp : js.Pairwise Apart) (hP : ∀ j ∈ s.1, ∀ k l, j.todo = .mkdir k :: l → k ∈ s.2.dirs → P) (k : Nat) : AllOnWay P js d (stepAt s k) := by
  unfold Gemlog.stepAt
  cases hk : s.1[k]? with
  | none => exact h
  | some j' =>
    obtain ⟨j, hj, ho⟩ := forall₂_get h hk
    refine forall₂_of_get ?_ ?_
    · simpa using h.length_eq
    · intro i a b ha hb
      simp only [List.getElem?_set] at hb
      by_cases hik : k = i
      · subst hik
        rw [hj] at ha
        cases ha
        rw [if_pos rfl] at hb
        split at hb
        · cases hb; exact ho.step (hP _ (List.mem_of_getElem? hk))
        · simp at hb
      · rw [if_neg hik] at hb
        obtain ⟨a', ha', hob⟩ := forall₂_get h hb
        rw [ha] at ha'
        cases ha'
        refine hob.frame ?_
        intro key hkey
        refine step_frame ho.ok _ _ ?_
        rw [owns_congr ho.sn ho.id ho.fmt]
        obtain ⟨f1, f2, f3, f4⟩ := pairwise_get hp (fun _ _ => Apart.symm) (fun e => hik e.symm) ha hj
        exact owns_disjoint f1 f2 f3 f4 key hkey

theorem AllOnWay.start {γ : Type} {P : Prop} (js : List (Proc γ)) (d : Disk γ) (hok : ∀ j ∈ js, j.Ok ∧ FoldersFirst j.todo) :
    AllOnWay P js d (js, d) := by
  refine forall₂_of_get rfl ?_
  intro i a b ha hb
  simp only at hb
  rw [ha] at hb; cases hb
  obtain ⟨h1, h2⟩ := hok a (List.mem_of_getElem? ha)
  exact .start h1 h2

/-- Any schedule: every conversion is on its way or gave up without having written anything. -/
theorem runSchedule_onWay {γ : Type} (js : List (Proc γ)) (d : Disk γ) (hok : ∀ j ∈ js, j.Ok ∧ FoldersFirst j.todo)
    (hp : js.Pairwise Apart) (sched : List Nat) : AllOnWay True js d (runSchedule sched (js, d)) := by
  unfold runSchedule
  have base : AllOnWay True js d (js, d) := .start js d hok
  generalize (js, d) = s at base
  induction sched generalizing s with
  | nil => exact base
  | cons k r ih => exact ih _ (base.stepAt hp (fun _ _ _ _ _ _ => trivial) k)

/-- No folder is made. -/
def NoMake {γ : Type} (l : List (Instr γ)) : Prop := ∀ k, Instr.mkdir k ∉ l

theorem step_dirs {γ : Type} (j : Proc γ) (d : Disk γ) (k : Folder) (h : k ∈ d.dirs) : k ∈ (stepProc j d).2.dirs := by
  rw [stepProc]
  split
  · exact h
  · exact h
  · split
    · exact h
    · exact List.mem_cons_of_mem _ h
  · exact h
  · rw [act_dirs]; exact h

theorem step_noMake {γ : Type} (j : Proc γ) (d : Disk γ) (h : NoMake j.todo) (hd : ∀ k, k ∈ d.dirs) :
    NoMake (stepProc j d).1.todo := by
  intro k hk
  rcases step_todo j d with e | ⟨x, e⟩ | ⟨k', l, e, e', hk'⟩
  · rw [e] at hk; simp at hk
  · exact h k (by rw [e]; exact List.mem_cons_of_mem _ hk)
  · exact hk' (hd k')

/-- If the folders exist, every conversion is on its way. -/
theorem runSchedule_folders {γ : Type} (js : List (Proc γ)) (d : Disk γ) (hok : ∀ j ∈ js, j.Ok ∧ FoldersFirst j.todo)
    (hm : ∀ j ∈ js, NoMake j.todo) (hd : ∀ k, k ∈ d.dirs) (hp : js.Pairwise Apart) (sched : List Nat) :
    AllOnWay False js d (runSchedule sched (js, d)) := by
  unfold runSchedule
  have base : AllOnWay False js d (js, d) := .start js d hok
  have hd' : ∀ k, k ∈ (js, d).2.dirs := hd
  have hm' : ∀ j ∈ (js, d).1, NoMake j.todo := hm
  generalize (js, d) = s at base hd' hm'
  induction sched generalizing s with
  | nil => exact base
  | cons k r ih =>
    refine ih _ (base.stepAt hp ?_ k) ?_ ?_
    · intro j hj k' l hl _
      exact hm' j hj k' (by rw [hl]; exact List.mem_cons_self ..)
    · intro k'
      unfold stepAt
      split
      · exact hd' k'
      · exact step_dirs _ _ _ (hd' k')
    · intro j hj
      unfold stepAt at hj
      split at hj
      · exact hm' j hj
      · rename_i a ha
        rcases List.mem_or_eq_of_mem_set hj with h | h
        · exact hm' j h
        · rw [h]; exact step_noMake _ _ (hm' _ (List.mem_of_getElem? ha)) hd'

/-- A conversion on its own: a folder that has to be made is missing. -/
def SoleOk {γ : Type} (s : List (Proc γ) × Disk γ) : Prop :=
  ∀ j ∈ s.1, (∀ k l, j.todo = .mkdir k :: l → k ∉ s.2.dirs) ∧ NoMake j.todo.tail

theorem sole_step {γ : Type} (j : Proc γ) (d : Disk γ) (h : SoleOk ([j], d)) : SoleOk ([(stepProc j d).1], (stepProc j d).2) := by
  obtain ⟨h1, h2⟩ := h j (by simp)
  intro j' hj'
  simp only [List.mem_singleton] at hj'
  subst hj'
  rcases step_todo j d with e | ⟨x, e⟩ | ⟨k', l, e, e', hk'⟩
  · rw [e]; exact ⟨by simp, by simp [NoMake]⟩
  · rw [e] at h2
    simp only [List.tail_cons] at h2
    refine ⟨?_, fun k hk => h2 k (List.mem_of_mem_tail hk)⟩
    intro k l hl
    exact absurd (by rw [hl]; exact List.mem_cons_self ..) (h2 k)
  · rw [e']
    refine ⟨?_, ?_⟩
    · intro k l' hl
      cases hl
      have : (stepProc j d).2 = d := by rw [stepProc, e]
      rw [this]; exact hk'
    · rw [e] at h2; exact h2

/-- A conversion on its own is on its way. -/
theorem runSchedule_sole {γ : Type} (j : Proc γ) (d : Disk γ) (hj : j.Ok) (hf : FoldersFirst j.todo) (hm : NoMake j.todo)
    (n : Nat) : AllOnWay False [j] d (runSchedule (List.replicate n 0) ([j], d)) := by
  unfold runSchedule
  have base : AllOnWay False [j] d ([j], d) := .start [j] d (by simpa using ⟨hj, hf⟩)
  have hs : SoleOk ([j], d) := by
    intro j' hj'
    simp only [List.mem_singleton] at hj'
    subst hj'
    refine ⟨?_, fun k hk => hm k (List.mem_of_mem_tail hk)⟩
    intro k l hl
    exact absurd (by rw [hl]; exact List.mem_cons_self ..) (hm k)
  have hl : ∃ a, ([j], d).1 = [a] := ⟨j, rfl⟩
  generalize ([j], d) = s at base hs hl
  induction n generalizing s with
  | zero => exact base
  | succ n ih =>
    obtain ⟨a, ha⟩ := hl
    obtain ⟨js, d'⟩ := s
    simp only at ha
    subst ha
    refine ih _ (base.stepAt (List.pairwise_singleton ..) ?_ 0) (sole_step a d' hs) ⟨_, rfl⟩
    intro j' hj' k l hl hk
    exact (hs j' hj').1 k l hl hk

/-! ## Ending -/

/-- The number of instructions at most left. -/
def left {γ : Type} (j : Proc γ) : Nat :=
  match j.todo with
  | .mkdir _ :: l => 2 * l.length + 1
  | l => 2 * l.length

theorem left_step {γ : Type} (j : Proc γ) (d : Disk γ) : left (stepProc j d).1 ≤ left j - 1 := by
  have hle : ∀ l : List (Instr γ), ∀ j : Proc γ, j.todo = l → left j ≤ 2 * l.length := by
    intro l j hl
    unfold left
    rw [hl]
    split
    · simp only [List.length_cons]; omega
    · exact Nat.le_refl _
  rcases step_todo j d with e | ⟨x, e⟩ | ⟨k, l, e, e', _⟩
  · have := hle _ _ e
    simp only [List.length_nil] at this
    omega
  · have h1 := hle _ (stepProc j d).1 rfl
    have h2 : 2 * (stepProc j d).1.todo.length + 1 ≤ left j := by
      generalize (stepProc j d).1.todo = r at e
      unfold left
      rw [e]
      split
      · rename_i h; cases h; omega
      · simp only [List.length_cons]; omega
    omega
  · have h1 : left (stepProc j d).1 = 2 * l.length + 1 := by unfold left; rw [e']
    have h2 : left j = 2 * l.length + 2 := by unfold left; rw [e]; simp only [List.length_cons]; omega
    omega

/-- A conversion on its own ends. -/
theorem sole_ends {γ : Type} (j : Proc γ) (d : Disk γ) (n : Nat) (hn : 2 * j.todo.length ≤ n) :
    ∃ j', (runSchedule (List.replicate n 0) ([j], d)).1 = [j'] ∧ j'.todo = [] := by
  have hl : left j ≤ n := by
    refine Nat.le_trans ?_ hn
    unfold left
    split
    · rename_i h; rw [h]; simp only [List.length_cons]; omega
    · exact Nat.le_refl _
  clear hn
  induction n generalizing j d with
  | zero =>
    refine ⟨j, rfl, ?_⟩
    unfold left at hl
    split at hl
    · omega
    · exact List.length_eq_zero_iff.mp (by omega)
  | succ n ih =>
    have := left_step j d
    exact ih (stepProc j d).1 (stepProc j d).2 (by omega)

end Gemlog
