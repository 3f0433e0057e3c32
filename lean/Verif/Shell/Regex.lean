/-
The regular expressions of the command shell (riscv/debug_command_shell.cc:52-92) and the way
`RE2::FullMatch` reads a line with them.

RE2 is an external library; it is taken to return, of all ways to match the whole text, the one a
backtracking matcher finds first (its documented "leftmost-first" rule), and to leave a group that
takes no part in the match empty.
-/
namespace Verif.Shell

/-- Text is a list of characters. -/
abbrev Text := List Char

/-- `\s` of RE2: tab, line feed, form feed, carriage return, space. -/
def sp (c : Char) : Bool := c = ' ' || c = '\t' || c = '\n' || c = '\r' || c = '\x0c'

/-- `\d`. -/
def dig (c : Char) : Bool := 48 ≤ c.toNat && c.toNat ≤ 57

/-- `\w`. -/
def wrd (c : Char) : Bool :=
  dig c || (97 ≤ c.toNat && c.toNat ≤ 122) || (65 ≤ c.toNat && c.toNat ≤ 90) || c = '_'

/-- `.`: anything but a line feed. -/
def dot (c : Char) : Bool := !(c = '\n')

/-- The expressions used: repetition is always of a class of characters. -/
inductive Re where
  | lit (t : Text)
  /-- one character of a class -/
  | one (p : Char → Bool)
  /-- `p*` -/
  | star (p : Char → Bool)
  /-- `p+` -/
  | plus (p : Char → Bool)
  /-- `(p)+`: the group holds the last character -/
  | plusLast (p : Char → Bool)
  | seq (a b : Re)
  | alt (a b : Re)
  /-- `(?:a)?` -/
  | opt (a : Re)
  /-- a capturing group -/
  | grp (a : Re)

/-- The texts of the groups, in the order of their opening parentheses. -/
abbrev Caps := List (Option Text)

/-- The number of groups, all without a text. -/
def Re.nones : Re → Caps
  | .lit _ | .one _ | .star _ | .plus _ => []
  | .plusLast _ => [none]
  | .seq a b | .alt a b => a.nones ++ b.nones
  | .opt a => a.nones
  | .grp a => none :: a.nones

/-- The ways to split off a front whose characters are all in the class, longest first. -/
def splits (p : Char → Bool) : Text → List (Text × Text)
  | [] => [([], [])]
  | c :: s => if p c then (splits p s).map (fun x => (c :: x.1, x.2)) ++ [([], c :: s)]
              else [([], c :: s)]

/-- The ways to match a front of the text, in the order in which they are tried: groups, matched
front, rest. -/
def Re.ways : Re → Text → List (Caps × Text × Text)
  | .lit t, s => if t.isPrefixOf s then [([], t, s.drop t.length)] else []
  | .one _, [] => []
  | .one p, c :: s => if p c then [([], [c], s)] else []
  | .star p, s => (splits p s).map fun x => ([], x.1, x.2)
  | .plus p, s => ((splits p s).filter fun x => !x.1.isEmpty).map fun x => ([], x.1, x.2)
  | .plusLast p, s => ((splits p s).filter fun x => !x.1.isEmpty).map fun x =>
      ([x.1.getLast?.map fun c => [c]], x.1, x.2)
  | .seq a b, s => (a.ways s).flatMap fun x => (b.ways x.2.2).map fun y =>
      (x.1 ++ y.1, x.2.1 ++ y.2.1, y.2.2)
  | .alt a b, s => ((a.ways s).map fun x => (x.1 ++ b.nones, x.2))
      ++ ((b.ways s).map fun x => (a.nones ++ x.1, x.2))
  | .opt a, s => a.ways s ++ [(a.nones, [], s)]
  | .grp a, s => (a.ways s).map fun x => (some x.2.1 :: x.1, x.2)

/-- `RE2::FullMatch`: the groups of the first way to match the whole text. -/
def full (r : Re) (s : Text) : Option Caps :=
  ((r.ways s).find? fun x => x.2.2.isEmpty).map (·.1)

end Verif.Shell
