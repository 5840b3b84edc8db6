import Verif.Model.Names

/-!
# Converting several instruments in parallel

Models the parallel part of gemconvert.py (24-48, 221-226) at the level of what the conversions do to the disk: each
conversion (core.py:228-335) is a list of instructions, executed one at a time, in any interleaving with the others. What is
read from the raw files is fixed. Files hold lists of pieces; `γ` is the type of pieces.
-/

namespace Gemlog

/-- The folders a conversion writes to (core.py: `gpspath`, `metadatapath`, `convertedpath`). Simplification: they are
different. -/
inductive Folder where
  | gps
  | metadata
  | converted
  deriving DecidableEq, Repr

/-- The disk: existing folders, and files with their contents, the newest first. -/
structure Disk (γ : Type) where
  dirs : List Folder
  files : List ((Folder × List Nat) × List γ)

/-- The content of a file. -/
def Disk.get {γ : Type} (d : Disk γ) (key : Folder × List Nat) : Option (List γ) :=
  (d.files.find? fun f => f.1 = key).map Prod.snd

/-- Writing a file replaces its content. -/
def Disk.put {γ : Type} (d : Disk γ) (key : Folder × List Nat) (c : List γ) : Disk γ :=
  { d with files := (key, c) :: d.files }

/-- The names in a folder. -/
def Disk.names {γ : Type} (d : Disk γ) (k : Folder) : List (List Nat) :=
  (d.files.filter fun f => f.1.1 = k).map fun f => f.1.2

/-- One action on the disk. -/
inductive Instr (γ : Type) where
  | isdir (k : Folder)              -- core.py:231, 241, 250: `if not os.path.isdir(...)`
  | mkdir (k : Folder)              -- core.py:233, 243, 252: `os.makedirs`, if it was missing
  | choose (k : Folder)             -- core.py:237, 247: `_make_filename`
  | start (k : Folder) (c : γ)      -- core.py:261, 265: `to_csv`
  | extend (k : Folder) (c : γ)     -- core.py:306, 310: `to_csv(mode='a')`
  | segment (a : Int) (c : γ)       -- core.py:346-356: write a segment starting at `a` (hundredths of a second)
  | fail                            -- an exception, caught in gemconvert.py:38-44
  deriving DecidableEq, Repr

/-- The conversion of one serial number: serial number, trace identifier, format, the names chosen so far, and what is
left to do. -/
structure Proc (γ : Type) where
  sn : List Nat
  id : List Nat
  fmt : List Nat
  gpsFile : Option (List Nat)
  metaFile : Option (List Nat)
  todo : List (Instr γ)

/-- The name of a summary file: `gps/SNgps_000.txt`, `metadata/SNmetadata_000.txt`. -/
def summaryName (k : Folder) (sn : List Nat) (n : Nat) : List Nat :=
  match k with
  | .gps => indexedName (bytes "gps") sn (bytes "gps") n
  | _ => indexedName (bytes "metadata") sn (bytes "metadata") n

/-- core.py:237, 247: choose the first unused name. -/
def chooseName {γ : Type} (d : Disk γ) (k : Folder) (sn : List Nat) : Option (List Nat) :=
  match k with
  | .gps => makeFilename (d.names .gps) (bytes "gps") sn (bytes "gps")
  | _ => makeFilename (d.names .metadata) (bytes "metadata") sn (bytes "metadata")

/-- The file chosen in a folder. -/
def Proc.file {γ : Type} (j : Proc γ) (k : Folder) : Option (List Nat) :=
  match k with
  | .gps => j.gpsFile
  | .metadata => j.metaFile
  | .converted => none

/-- Instructions that always go on with the next one. -/
def act {γ : Type} (x : Instr γ) (j : Proc γ) (d : Disk γ) : Proc γ × Disk γ :=
  match x with
  | .choose .gps => ({ j with gpsFile := chooseName d .gps j.sn }, d)
  | .choose .metadata => ({ j with metaFile := chooseName d .metadata j.sn }, d)
  | .start k c =>
    match j.file k with
    | some f => (j, d.put (k, f) [c])
    | none => (j, d)
  | .extend k c =>
    match j.file k with
    | some f => (j, d.put (k, f) ((d.get (k, f)).getD [] ++ [c]))
    | none => (j, d)
  | .segment a c => (j, d.put (.converted, convertedName j.id j.fmt a) [c])
  | _ => (j, d)

/-- One instruction of a conversion. `os.makedirs` raises if the folder exists by then; the conversion then ends by
`sys.exit` (core.py:234-236, 244-246, 253-255), unnoticed, because the results of the pool are never fetched (gemconvert.py:226). -/
def stepProc {γ : Type} (j : Proc γ) (d : Disk γ) : Proc γ × Disk γ :=
  match j.todo with
  | [] => (j, d)
  | .isdir k :: l => ({ j with todo := if k ∈ d.dirs then l else .mkdir k :: l }, d)
  | .mkdir k :: l => if k ∈ d.dirs then ({ j with todo := [] }, d) else ({ j with todo := l }, { d with dirs := k :: d.dirs })
  | .fail :: _ => ({ j with todo := [] }, d)
  | x :: l => act x { j with todo := l } d

/-- gemconvert.py:221-226: several conversions at work; conversion `i` executes one instruction. -/
def stepAt {γ : Type} (s : List (Proc γ) × Disk γ) (i : Nat) : List (Proc γ) × Disk γ :=
  match s.1[i]? with
  | none => s
  | some j => (s.1.set i (stepProc j s.2).1, (stepProc j s.2).2)

/-- A schedule: which conversion executes the next instruction. -/
def runSchedule {γ : Type} (sched : List Nat) (s : List (Proc γ) × Disk γ) : List (Proc γ) × Disk γ := sched.foldl stepAt s

/-- core.py:228-335: the instructions of a conversion: find folders and names, start the summary files, then whatever
the blocks give rise to. -/
def procInstrs {γ : Type} (metadata gps : γ) (rest : List (Instr γ)) : List (Instr γ) :=
  [.isdir .gps, .choose .gps, .isdir .metadata, .choose .metadata, .isdir .converted, .start .metadata metadata,
    .start .gps gps] ++ rest

end Gemlog
