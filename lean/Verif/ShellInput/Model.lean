import Verif.Shell.Model
/-
Where the shell takes its commands from (riscv/debug_command_shell.cc:183-302, 1078-1090): the terminal,
and the files named by `exec`, which may name further files.

Texts are lists of characters without the character 0. `linenoise` gives the lines typed, then a null
pointer for the end of the input. The terminal's stream object is never at its end and never bad. Opening
a file is a function of its name, the same throughout a session. Commands added with `AddCommand` are
left out, and carrying out a command is left to the models of the commands.
-/
namespace Verif.ShellInput
open Verif.Shell (Text sp read)

/-- A file that is being read: what is left of it, and its failbit. -/
structure Stream where
  text : Text
  failed : Bool
deriving DecidableEq

/-- `istream::getline(line, 512)` on a stream without failbit: up to 511 characters are stored; the end of
the file before a newline sets eofbit; a longer line sets failbit. -/
inductive Got where
  | eof
  | ok (l rest : Text)
  | long (l rest : Text)

def getline (s : Text) : Got :=
  let l := s.takeWhile (· ≠ '\n')
  if 511 < l.length then .long (s.take 511) (s.drop 511)
  else
    match s.dropWhile (· ≠ '\n') with
    | [] => .eof
    | _ :: r => .ok l r

/-- `empty_re_`, `\s*(?:\#.*)?` (debug_command_shell.cc:92), on a line without newline. -/
def blank (l : Text) : Bool :=
  match l.dropWhile sp with
  | [] => true
  | c :: _ => c = '#'

/-- What the loop at debug_command_shell.cc:254-268 comes to for a file. -/
inductive Fetch where
  | line (t : Text) (s : Stream)
  | ended
  /-- The loop never ends: on a stream with failbit `getline` stores an empty line, and neither eofbit nor
  badbit is set. -/
  | hang

/-- The loop; `n` bounds the number of lines (see `fetch`). -/
def fetchN : Nat → Stream → Fetch
  | 0, _ => .hang
  | n + 1, s =>
    if s.failed then .hang
    else
      match getline s.text with
      | .eof => .ended
      | .ok l r => if blank l then fetchN n ⟨r, false⟩ else .line l ⟨r, false⟩
      | .long l r => if blank l then .hang else .line l ⟨r, true⟩

/-- Every round but the last takes at least one character. -/
def fetch (s : Stream) : Fetch := fetchN (s.text.length + 1) s

/-- `files`: the streams above the terminal in `command_streams_`, innermost first. `saved`:
`previous_commands_`. `prev`: `previous_line`. `input`: what will be typed. -/
structure State where
  files : List Stream := []
  saved : List Text := []
  prev : Text := []
  input : List Text
deriving DecidableEq

/-- One turn: a command is carried out, or something else happens, or `Run` returns, or it never goes on. -/
inductive Result where
  | did (c : Text) (s : State)
  | quiet (s : State)
  | stop
  | hang
deriving DecidableEq

/-- `quit` (debug_command_shell.cc:315), `exec` (debug_command_shell.cc:1078-1090) or another command. -/
def carry (opens : Text → Option Text) (s : State) (c : Text) : Result :=
  match read c with
  | .quit => .stop
  | .exec f =>
    match opens f with
    | some text => .quiet { s with files := ⟨text, false⟩ :: s.files, saved := s.prev :: s.saved }
    | none => .did c s
  | _ => .did c s

/-- debug_command_shell.cc:248-302. The pushes and pops of the two stacks come in pairs, so `saved` is not
empty when a file ends. -/
def step (opens : Text → Option Text) (s : State) : Result :=
  match s.files with
  | f :: fs =>
    match fetch f with
    | .hang => .hang
    | .ended => .quiet { s with files := fs, saved := s.saved.tail, prev := s.saved.headD [] }
    | .line t f' => carry opens { s with files := f' :: fs, prev := t } t
  | [] =>
    match s.input with
    | [] => carry opens s s.prev
    | l :: ls =>
      if l.take 511 = [] then carry opens { s with input := ls } s.prev
      else carry opens { s with input := ls, prev := l.take 511 } (l.take 511)

/-- A number of turns, with the commands carried out. -/
inductive Steps (opens : Text → Option Text) : State → List Text → State → Prop
  | refl {s} : Steps opens s [] s
  | quiet {s s' t s''} : step opens s = .quiet s' → Steps opens s' t s'' → Steps opens s t s''
  | did {s c s' t s''} : step opens s = .did c s' → Steps opens s' t s'' → Steps opens s (c :: t) s''

end Verif.ShellInput
