import Verif.Shell.Model
/-
What a session is to do: the lines typed, and in place of an `exec` line the lines of the file. In a file
empty lines and comments are passed over; at the terminal an empty line stands for the line before.
-/
namespace Verif.ShellInput.Spec
open Verif.Shell (Text sp read)

/-- Nothing but blanks, or a `#` after blanks. -/
def Comment (l : Text) : Prop := (∀ c ∈ l, sp c = true) ∨ ∃ p q, l = p ++ '#' :: q ∧ ∀ c ∈ p, sp c = true

/-- The command a line stands for, if any. `p` is the line before. -/
def Says (file : Bool) (p l c : Text) : Prop :=
  if file then ¬ Comment l ∧ c = l else (l = [] ∧ c = p) ∨ (l ≠ [] ∧ c = l)

/-- `Runs dir file p ls t q`: the lines `ls`, of a file or typed, lead to the commands `t`; `q`: they end
with `quit`. -/
inductive Runs (dir : Text → Option (List Text)) : Bool → Text → List Text → List Text → Bool → Prop
  | nil {file p} : Runs dir file p [] [] false
  | skip {p l ls t q} : Comment l → Runs dir true p ls t q → Runs dir true p (l :: ls) t q
  | quit {file p l c ls} : Says file p l c → read c = .quit → Runs dir file p (l :: ls) [] true
  | execQuit {file p l c ls f fl t} : Says file p l c → read c = .exec f → dir f = some fl →
      Runs dir true c fl t true → Runs dir file p (l :: ls) t true
  | exec {file p l c ls f fl t u q} : Says file p l c → read c = .exec f → dir f = some fl →
      Runs dir true c fl t false → Runs dir file c ls u q → Runs dir file p (l :: ls) (t ++ u) q
  | other {file p l c ls u q} : Says file p l c → read c ≠ .quit →
      (∀ f, read c = .exec f → dir f = none) → Runs dir file c ls u q →
      Runs dir file p (l :: ls) (c :: u) q

/-- The text of a file whose lines all end with a newline. -/
def fileOf (ls : List Text) : Text := (ls.map (· ++ ['\n'])).flatten

/-- A line that fits the shell's buffer. -/
def Fits (l : Text) : Prop := '\n' ∉ l ∧ l.length ≤ 511

end Verif.ShellInput.Spec
