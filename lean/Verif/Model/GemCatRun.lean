import Verif.Model.GemCat
import Verif.Model.Cli

/-!
# Merging raw files: what happens on the disk

`Model/GemCat.lean` models what `gem_cat` writes as a function of the raw files. Here the same program (gem_cat.py:16-162) acts on folders, file by file,
reading what is there at that time; this matters if the program is interrupted, or if it writes into the folder it reads. Then its command
line, `main` (gem_cat.py:170-212). Simplifications: different texts name different folders; no file disappears while the program runs; printing is left out.
-/

namespace Gemlog

/-- The contents of files, by folder and name. -/
abbrev Folders := List Nat × List Nat → Option (List Nat)

/-- Create or replace a file. -/
def Folders.put (d : Folders) (p : List Nat × List Nat) (c : List Nat) : Folders := fun q => if q = p then some c else d q

/-- The two things `gem_cat` does to files: `shutil.copy` (gem_cat.py:60, 81, 96), and writing at the end of an existing file (135-141, 156-160). -/
inductive CatOp where
  | copy (p : List Nat × List Nat) (content : List Nat)
  | append (p : List Nat × List Nat) (text : List Nat)
  deriving DecidableEq, Repr

/-- The file changed. -/
def CatOp.path : CatOp → List Nat × List Nat
  | .copy p _ => p
  | .append p _ => p

/-- The effect of the action. -/
def CatOp.apply (d : Folders) : CatOp → Folders
  | .copy p c => d.put p c
  | .append p t => d.put p ((d p).getD [] ++ t)

/-- The first `n` bytes of the action: it was interrupted. -/
def CatOp.cut (n : Nat) : CatOp → CatOp
  | .copy p c => .copy p (c.take n)
  | .append p t => .append p (t.take n)

/-- Several actions. -/
def applyOps (d : Folders) (ops : List CatOp) : Folders := ops.foldl CatOp.apply d

/-- The variables of the loop: `out_file` (its name), `counter`, the name of the previous file and its `has_gps`. -/
structure CatVars where
  out : Option (List Nat) := none
  counter : Nat := 0
  prev : List Nat := []
  prevGps : Bool := false

/-- The content of a listed file. -/
def Folders.content (d : Folders) (folder name : List Nat) : List Nat := (d (folder, name)).getD []

/-- `shutil.copy`: raises SameFileError if source and target are one file. -/
def copyOp (d : Folders) (inD outD f name : List Nat) : Except Exc CatOp :=
  if (inD, f) = (outD, name) then .error .other else .ok (.copy (outD, name) (d.content inD f))

/-- gem_cat.py:112-162 `AppendFile(infile, outfile, prev_infile)`. -/
def appendOp (env : CatEnv) (d : Folders) (inD outD f prev name : List Nat) : Except Exc CatOp :=
  (appendText env (d.content inD f) (d.content inD prev)).map fun t => .append (outD, name) t

/-- gem_cat.py:53-104: the body of the loop over the files: new values of the variables, and what it does. -/
def catFile (env : CatEnv) (catAll : Bool) (inD outD sn : List Nat) (d : Folders) (v : CatVars) (f : List Nat) :
    Except Exc (CatVars × Option CatOp) :=
  if catAll then                                                             -- 57-63
    match v.out with
    | none => (copyOp d inD outD f (bytes "FILE9999." ++ sn)).map fun op => (⟨some (bytes "FILE9999." ++ sn), v.counter, f, false⟩, some op)
    | some o => (appendOp env d inD outD f v.prev o).map fun op => (⟨some o, v.counter, f, false⟩, some op)
  else
    match hasGps (d.content inD f) with
    | none => .error .emptyRaw                                               -- 65-69
    | some g =>
      match v.out with
      | none =>
        if g = false then .ok (⟨none, v.counter, f, false⟩, none)            -- 74-75
        else (copyOp d inD outD f (outName v.counter sn)).map fun op => (⟨some (outName v.counter sn), v.counter + 1, f, true⟩, some op)  -- 78-84
      | some o =>
        if g = true ∧ v.prevGps = true then                                  -- 91-97
          (copyOp d inD outD f (outName v.counter sn)).map fun op => (⟨some (outName v.counter sn), v.counter + 1, f, true⟩, some op)
        else (appendOp env d inD outD f v.prev o).map fun op => (⟨some o, v.counter, f, g⟩, some op)  -- 88-90, 98-104

/-- gem_cat.py:53-105: the loop. Result: the actions taken, and how it ended. -/
def catFiles (env : CatEnv) (catAll : Bool) (inD outD sn : List Nat) : List (List Nat) → Folders → CatVars → List CatOp × Except Exc Unit
  | [], _, _ => ([], .ok ())
  | f :: fs, d, v =>
    match catFile env catAll inD outD sn d v f with
    | .error x => ([], .error x)
    | .ok (v', none) => catFiles env catAll inD outD sn fs d v'
    | .ok (v', some op) =>
      let r := catFiles env catAll inD outD sn fs (op.apply d) v'
      (op :: r.1, r.2)

/-- The raw files of a folder, with their contents. -/
def Folders.raw (d : Folders) (folder : List Nat) (names : List (List Nat)) : List RawFile := names.map fun n => ⟨n, d.content folder n⟩

/-- gem_cat.py:43-105: `names` are those in the input folder. -/
def gemCatRun (env : CatEnv) (catAll : Bool) (inD outD ext : List Nat) (names : List (List Nat)) (d : Folders) : List CatOp × Except Exc Unit :=
  match (sortRaw ((d.raw inD names).filter fun e => catName ext e.name)).map RawFile.name with
  | [] => ([], .error .other)                                                -- 48-51: IndexError
  | f :: fs =>
    match env.readSN (d.content inD f) with
    | none => ([], .error .emptyRaw)
    | some sn => catFiles env catAll inD outD sn (f :: fs) d {}

/-! ## The command line -/

/-- gem_cat.py:173-175: the settings. -/
structure CatOpts where
  inputdir : List Nat := bytes "raw"
  outputdir : List Nat := bytes "raw_merged"
  ext : List Nat := []
  deriving DecidableEq, Repr

/-- gem_cat.py:177. -/
def catShort : List Nat := bytes "hi:o:e:"

/-- gem_cat.py:181-190: the options in order; `none`: the help text is printed, and the program exits. -/
def catApply (o : CatOpts) : List (List Nat × List Nat) → Option CatOpts
  | [] => some o
  | (opt, arg) :: l =>
    if opt = bytes "-h" ∨ opt = bytes "--help" then none
    else if opt = bytes "-i" ∨ opt = bytes "--inputdir" then catApply { o with inputdir := arg } l
    else if opt = bytes "-o" ∨ opt = bytes "--outputdir" then catApply { o with outputdir := arg } l
    else if opt = bytes "-e" ∨ opt = bytes "--ext" then catApply { o with ext := arg } l
    else catApply o l

/-- How a call ends: usage message (status 2), help text, input folder that cannot be listed, empty input folder, `gem_cat failed`, success
(status 0, all of them). -/
inductive CatEnd where
  | usage
  | help
  | noFolder
  | noFiles
  | failed
  | merged
  deriving DecidableEq, Repr

/-- The exit status. -/
def CatEnd.status : CatEnd → Nat
  | .usage => 2
  | _ => 0

/-- What the program meets: the names in a folder (`none`: it cannot be listed), and which folders exist or can be made. -/
structure CatWorld where
  list : List Nat → Option (List (List Nat))
  folder : List Nat → Bool

/-- gem_cat.py:170-212 `main(argv)`, with 34-42: how it ends, and what it does to files. -/
def gemCatMain (env : CatEnv) (w : CatWorld) (d : Folders) (argv : List (List Nat)) : CatEnd × List CatOp :=
  match getopt catShort [] argv with
  | none => (.usage, [])                                                     -- 178-180
  | some opts =>
    match catApply {} opts with
    | none => (.help, [])
    | some o =>
      match w.list o.inputdir with
      | none => (.noFolder, [])                                              -- 191-197
      | some names =>
        if names = [] then (.noFiles, [])                                    -- 198-200
        else if w.folder o.outputdir = false then (.failed, [])              -- 36-40
        else
          let r := gemCatRun env false o.inputdir o.outputdir o.ext names d
          (match r.2 with | .ok _ => .merged | .error _ => .failed, r.1)     -- 201-207

end Gemlog
