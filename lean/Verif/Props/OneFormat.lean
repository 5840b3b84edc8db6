import Verif.Props.OtherFiles
import Verif.Props.ReadGemMore

/-!
# C56: folders of one kind of files
-/

namespace Gemlog

/-- Specification: reading where every file is given to the reader of the version in its own first line (0.85C, 0.9, 0.91 and 1.10 have one reader).
A file without a readable version is treated like the others of its block. -/
def ownVersion (env : Env) : Env where
  __ := env
  ops := ⟨fun e start rg v =>
      match env.version e with
      | none => env.ops.read e start rg v
      | some u => env.ops.read e start rg (if u = "0.85C" ∨ u = "0.9" ∨ u = "0.91" ∨ u = "1.10" then "0.9" else u),
    env.ops.drift, env.ops.readSN⟩

/-- Specification: all files with a readable version are of the newer formats, or all of one and the same old format. -/
def OneKind (env : Env) (files : List Entry) : Prop :=
  (∀ e ∈ files, ∀ u, env.version e = some u → u = "0.85C" ∨ u = "0.9" ∨ u = "0.91" ∨ u = "1.10") ∨
  (∀ e ∈ files, ∀ u, env.version e = some u → u = "0.8") ∨ (∀ e ∈ files, ∀ u, env.version e = some u → u = "0.85")

theorem severalLoop_congr {F : Type} {ops ops' : FileOps F} {rg : Bool} {v : String} (files : List F)
    (h : ∀ f ∈ files, ∀ start, readOne ops' rg v f start = readOne ops rg v f start) :
    ∀ acc, severalLoop ops' rg v files acc = severalLoop ops rg v files acc := by
  induction files with
  | nil => intro acc; rfl
  | cons f fs ih =>
    intro acc
    have hs : severalStep ops' rg v acc f = severalStep ops rg v acc f := by
      unfold severalStep
      rw [h f (by simp)]
    unfold severalLoop
    rw [hs]
    cases severalStep ops rg v acc f with
    | error x => rfl
    | ok acc => exact ih (fun g hg => h g (by simp [hg])) acc

theorem firstReadable_ops (env : Env) (ops : FileOps Entry) (files : List Entry) :
    firstReadable { env with ops := ops } files = firstReadable env files := by
  induction files with
  | nil => rfl
  | cons e l ih =>
    unfold firstReadable
    simp only
    cases env.version e with
    | some v => rfl
    | none => exact ih

theorem readFilesAs_ownVersion (env : Env) (files : List Entry) (SN : List Nat) (rg : Bool) (h : OneKind env files) :
    readFilesAs (ownVersion env) files SN rg = readFilesAs env files SN rg := by
  unfold readFilesAs
  rw [show firstReadable (ownVersion env) files = firstReadable env files from firstReadable_ops env _ files]
  cases hf : firstReadable env files with
  | none => rfl
  | some q =>
    obtain ⟨fs, v, first⟩ := q
    obtain ⟨bad, e1, -, e3, e4⟩ := (firstReadable_some env _ _ _ _).mp hf
    simp only
    have hfirst : first ∈ files := by
      rw [e1]; exact List.mem_append_right _ (List.mem_of_head? e3)
    cases hv : severalVersion v with
    | none => rfl
    | some w =>
      have hr : readSeveral (ownVersion env).ops fs w rg = readSeveral env.ops fs w rg := by
        apply severalLoop_congr
        intro e he start
        have hmem : e ∈ files := by rw [e1]; exact List.mem_append_right _ he
        have hrv : readVersioned (ownVersion env).ops rg w e start = readVersioned env.ops rg w e start := by
          cases hu : env.version e with
          | none => simp only [readVersioned, ownVersion, hu]
          | some u =>
            rcases h with h | h | h
            · have hn := h e hmem u hu
              have : w = "0.9" := by
                rcases h first hfirst v e4 with rfl | rfl | rfl | rfl <;> simpa [severalVersion] using hv.symm
              subst this
              simp [readVersioned, ownVersion, hu, hn]
            · have hn := h e hmem u hu
              have hv' := h first hfirst v e4
              subst hn; subst hv'
              have : w = "0.8" := by simpa [severalVersion] using hv.symm
              subst this
              simp [readVersioned, ownVersion, hu]
            · have hn := h e hmem u hu
              have hv' := h first hfirst v e4
              subst hn; subst hv'
              have : w = "0.85" := by simpa [severalVersion] using hv.symm
              subst this
              simp [readVersioned, ownVersion, hu]
        unfold readOne
        rw [hrv]
        rfl
      simp only
      rw [hr]
      rfl

/-- **C56 for files of one kind (missing: blocks with files of several kinds, see `C56_violated`).** If the files selected are all of the newer formats (in
any mixture of 0.85C, 0.9, 0.91 and 1.10), or all of one old format, `read_gem` returns or raises the same as if each file were given to the reader of the
version in its own first line. -/
theorem C56_one_kind_partial (env : Env) (dir : List Entry) (SN : List Nat) (nums : List Int) (rg : Bool)
    (h : OneKind env (findFiles dir SN nums)) : readGem env dir SN nums rg = readGem (ownVersion env) dir SN nums rg := by
  unfold readGem
  have := readFilesAs_ownVersion env (findFiles dir SN nums) SN rg h
  revert this
  generalize findFiles dir SN nums = files
  intro this
  cases files with
  | nil => rfl
  | cons e l => exact this.symm

/-- **C56 for `convert`.** The same holds for a conversion of a directory if it holds for every block, in particular if all its files are of one kind. -/
theorem C56_convert_partial (env : Env) (isDir : Bool) (dir : List Entry) (SN : List Nat) (nums : List (Option Int)) (blockdays : Rat) (L : Int)
    (t1 : Option Int) (t2 : Int) (fuel : Nat) (h : OneKind env dir) :
    convertDir env isDir dir SN nums blockdays L t1 t2 fuel = convertDir (ownVersion env) isDir dir SN nums blockdays L t1 t2 fuel := by
  have hall : ∀ block, OneKind env (findFiles dir SN block) := by
    intro block
    have hsub : ∀ e ∈ findFiles dir SN block, e ∈ dir := fun e he => ((C40_selection _ _ _ _).mp he).1
    rcases h with h | h | h
    · exact .inl fun e he => h e (hsub e he)
    · exact .inr (.inl fun e he => h e (hsub e he))
    · exact .inr (.inr fun e he => h e (hsub e he))
  unfold convertDir
  cases convertNums isDir dir SN nums with
  | error x => rfl
  | ok ns =>
    simp only
    have : jobOf env dir SN ns blockdays L t2 = jobOf (ownVersion env) dir SN ns blockdays L t2 := by
      unfold jobOf
      congr 1
      funext block
      rw [C56_one_kind_partial env dir SN block true (hall block)]
    rw [this]

/-- A directory of four files, the second of format 0.91, the third of 1.10, the fourth unreadable; it is read. -/
example :
    let version : Entry → Option String := fun e =>
      if fileNum e.name = 2 then some "0.91" else if fileNum e.name = 3 then some "1.10" else if fileNum e.name = 4 then none else some "0.9"
    let env : Env := { demoEnv with version := version }
    OneKind env (findFiles demoFilesDir (bytes "012") [1, 2, 3, 4]) ∧
    (readGem env demoFilesDir (bytes "012") [1, 2, 3, 4] true).toBool = true := by
  refine ⟨.inl ?_, by decide +kernel⟩
  intro e _ u hu
  simp only at hu
  split_ifs at hu <;> simp_all

end Gemlog
