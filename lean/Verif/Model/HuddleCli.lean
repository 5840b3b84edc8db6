import Verif.Model.Cli

/-!
# The command line of verify_huddle_test

Models `main` of huddle_test.py (863-891) up to the call of `verify_huddle_test`, whose model is in `Model/Huddle.lean`. Printing is left out.
-/

namespace Gemlog

/-- huddle_test.py:866-868: the settings and their defaults. -/
structure HuddleOpts where
  inputdir : List Nat := bytes "."
  sns : List (List Nat) := []
  exclude : List (List Nat) := []
  deriving DecidableEq

/-- What a call comes to: a usage message and status 2, the help text and status 0, or `verify_huddle_test(inputdir, SN_list, exclude)`. -/
inductive HuddleCall
  | usage
  | help
  | run (o : HuddleOpts)
  deriving DecidableEq

/-- huddle_test.py:872. -/
def huddleShort : List Nat := bytes "hdti:s:x:o:f:l:p:"

/-- huddle_test.py:872. -/
def huddleLong : List (List Nat) := [bytes "inputdir=", bytes "serialnumber="]

/-- huddle_test.py:876-889: the options in order; options without a branch have no effect. -/
def huddleApply (o : HuddleOpts) : List (List Nat × List Nat) → HuddleCall
  | [] => .run o
  | (opt, arg) :: l =>
    if opt = bytes "-h" ∨ opt = bytes "--help" then .help                                    -- 877-879
    else if opt = bytes "-d" ∨ opt = bytes "--debug" then huddleApply o l                    -- 880-881
    else if opt = bytes "-i" ∨ opt = bytes "--inputdir" then huddleApply { o with inputdir := arg } l
    else if opt = bytes "-s" ∨ opt = bytes "--serialnumbers" then huddleApply { o with sns := splitComma arg } l
    else if opt = bytes "-x" ∨ opt = bytes "--exclude_serialnumbers" then huddleApply { o with exclude := splitComma arg } l
    else huddleApply o l

/-- huddle_test.py:863-891 `main`. -/
def huddleMain (argv : List (List Nat)) : HuddleCall :=
  match getopt huddleShort huddleLong argv with
  | none => .usage                                                                           -- 873-875
  | some opts => huddleApply {} opts

end Gemlog
