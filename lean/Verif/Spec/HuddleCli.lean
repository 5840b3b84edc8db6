import Verif.Model.Cli

/-!
# The options of verify_huddle_test, as typed
-/

namespace Gemlog

/-- An option as typed: a flag `-h -d -t`; a letter `-i -s -x` (or one of `-o -f -l -p`, which have no meaning) with its value as the next word or
in the same word; or `--inputdir` with its value after a blank or an equals sign. -/
inductive HuddleWord where
  | flag (c : Nat) (h : c ∈ bytes "hdt")
  | value (c : Nat) (h : c ∈ bytes "isxoflp") (a : List Nat)
  | glued (c : Nat) (h : c ∈ bytes "isxoflp") (a : List Nat) (ha : a ≠ [])
  | long (a : List Nat)
  | longEq (a : List Nat)

/-- The words typed. -/
def HuddleWord.typed : HuddleWord → List (List Nat)
  | .flag c _ => [[45, c]]
  | .value c _ a => [[45, c], a]
  | .glued c _ a _ => [45 :: c :: a]
  | .long a => [bytes "--inputdir", a]
  | .longEq a => [bytes "--inputdir=" ++ a]

/-- The value typed for a letter; the long option is the letter `i`. -/
def HuddleWord.valueOf (c : Nat) : HuddleWord → Option (List Nat)
  | .flag _ _ => none
  | .value d _ a => if d = c then some a else none
  | .glued d _ a _ => if d = c then some a else none
  | .long a => if c = 105 then some a else none
  | .longEq a => if c = 105 then some a else none

/-- The last value typed for a letter. -/
def lastTyped (c : Nat) (ws : List HuddleWord) : Option (List Nat) := (ws.filterMap (HuddleWord.valueOf c)).getLast?

/-- Is it `-h`? -/
def HuddleWord.isHelp : HuddleWord → Bool
  | .flag c _ => c == 104
  | _ => false

end Gemlog
