import Verif.Shell.Model
/-
The commands of the shell as its help text describes them (debug_command_shell.cc:94-168): a line
is a list of words separated by blanks, and how many blanks there are makes no difference.
-/
namespace Verif.Shell.Spec

def blank (c : Char) : Bool := c = ' ' || c = '\t' || c = '\n' || c = '\r' || c = '\x0c'

/-- The words of a line; `cur` is what has been read of the current one. -/
def tokensFrom (cur : Text) : Text → List Text
  | [] => if cur = [] then [] else [cur]
  | c :: s =>
    if blank c then (if cur = [] then tokensFrom [] s else cur :: tokensFrom [] s)
    else tokensFrom (cur ++ [c]) s

def tokens (s : Text) : List Text := tokensFrom [] s

/-- Letters, digits and underscores. -/
def letter (c : Char) : Bool :=
  ('a'.toNat ≤ c.toNat && c.toNat ≤ 'z'.toNat) || ('A'.toNat ≤ c.toNat && c.toNat ≤ 'Z'.toNat)
    || ('0'.toNat ≤ c.toNat && c.toNat ≤ '9'.toNat) || c = '_'

def digit (c : Char) : Bool := '0'.toNat ≤ c.toNat && c.toNat ≤ '9'.toNat

/-- VALUE or SYMBOL. -/
def IsWord (t : Text) : Prop := t ≠ [] ∧ t.all letter = true

/-- NAME of a register, possibly after a dollar sign. -/
def IsName (t : Text) : Prop := IsWord t ∨ ∃ u, t = '$' :: u ∧ IsWord u

/-- A number N in decimal. -/
def IsNumber (t : Text) : Prop := t ≠ [] ∧ t.all digit = true

def value (t : Text) : Nat := t.foldl (fun n c => n * 10 + (c.toNat - '0'.toNat)) 0

/-- FORMAT: a letter and a width. -/
def IsFormat (t : Text) : Prop :=
  ∃ l w, l ∈ "oduxX".toList ∧ w ∈ ["8".toList, "16".toList, "32".toList, "64".toList] ∧ t = l :: w

/-- Words with a meaning of their own, which are not taken for values. -/
def IsKeyword (t : Text) : Prop := t = "get".toList ∨ t = "set".toList ∨ t = "clear".toList

/-- `[r|w|rw]`, write if left out. -/
def IsAccess : List Text → Access → Prop
  | [], a => a = .store
  | [t], a => (t = "r".toList ∧ a = .load) ∨ (t = "w".toList ∧ a = .store)
      ∨ (t = "rw".toList ∧ a = .loadStore)
  | _, _ => False

/-- A register's name that may have an index: `NAME[:INDEX]`. -/
def IsElement (t name index : Text) : Prop :=
  IsWord name ∧ ((t = name ∧ index = []) ∨ (t = name ++ ':' :: index ∧ IsNumber index))

/-- The rows of the help text: the words of the line and the command they stand for. -/
inductive Documented : List Text → Cmd → Prop
  | quit : Documented ["quit".toList] .quit
  | core0 : Documented ["core".toList] (.core 0)
  | core (n) : IsNumber n → Documented ["core".toList, n] (.core (value n))
  | run : Documented ["run".toList] .run
  | runFree : Documented ["run".toList, "free".toList] .runFree
  | wait : Documented ["wait".toList] .wait
  | step1 : Documented ["step".toList] (.step 1)
  | step (n) : IsNumber n → Documented ["step".toList, n] (.step (value n))
  | halt : Documented ["halt".toList] .halt
  | regGet (n) : IsName n → Documented ["reg".toList, "get".toList, n] (.regGet n)
  | regGetF (n f) : IsName n → IsFormat f →
      Documented ["reg".toList, "get".toList, n, f] (.regGet n)
  | reg (n) : IsName n → ¬ IsKeyword n → Documented ["reg".toList, n] (.regGet n)
  | regF (n f) : IsName n → ¬ IsKeyword n → IsFormat f →
      Documented ["reg".toList, n, f] (.regGet n)
  | regSet (n v) : IsName n → IsWord v →
      Documented ["reg".toList, "set".toList, n, v] (.regSet n v)
  | vregGet (t n i) : IsElement t n i →
      Documented ["vreg".toList, "get".toList, t] (.vregGet n i "x".toList "32".toList)
  | vregGetF (t n i l w) : IsElement t n i → IsFormat (l :: w) →
      Documented ["vreg".toList, "get".toList, t, l :: w] (.vregGet n i [l] w)
  | vregSet (t n i l w v) : IsElement t n i → IsFormat (l :: w) → IsWord v →
      Documented ["vreg".toList, "set".toList, t, l :: w, v] (.vregSet n i [l] w v)
  | vregSetD (t n i v) : IsElement t n i → IsWord v →
      Documented ["vreg".toList, "set".toList, t, v] (.vregSet n i "x".toList "32".toList v)
  | memGet (a) : IsWord a → Documented ["mem".toList, "get".toList, a] (.memGet a [])
  | memGetF (a f) : IsWord a → IsFormat f →
      Documented ["mem".toList, "get".toList, a, f] (.memGet a f)
  | mem (a) : IsWord a → ¬ IsKeyword a → Documented ["mem".toList, a] (.memGet a [])
  | memF (a f) : IsWord a → ¬ IsKeyword a → IsFormat f →
      Documented ["mem".toList, a, f] (.memGet a f)
  | memSet (a v) : IsWord a → IsWord v → ¬ IsFormat v →
      Documented ["mem".toList, "set".toList, a, v] (.memSet a [] v)
  | memSetF (a f v) : IsWord a → IsFormat f → IsWord v →
      Documented ["mem".toList, "set".toList, a, f, v] (.memSet a f v)
  | breakSet (a) : IsWord a → Documented ["break".toList, "set".toList, a] (.breakSet a true)
  | break (a) : IsWord a → ¬ IsKeyword a → Documented ["break".toList, a] (.breakSet a true)
  | breakSetN (n) : IsNumber n →
      Documented ["break".toList, "set".toList, '#' :: n] (.breakSetN n)
  | breakN (n) : IsNumber n → Documented ["break".toList, '#' :: n] (.breakSetN n)
  | breakClear (a) : IsWord a → Documented ["break".toList, "clear".toList, a] (.breakClear a)
  | breakClearN (n) : IsNumber n →
      Documented ["break".toList, "clear".toList, '#' :: n] (.breakClearN n)
  | breakClearAll : Documented ["break".toList, "clear-all".toList] .breakClearAll
  | breakList : Documented ["break".toList] .breakList
  | watchSet (a n r acc) : IsWord a → IsWord n → IsAccess r acc →
      Documented (["watch".toList, "set".toList, a, n] ++ r) (.watchSet a n acc)
  | watch (a n r acc) : IsWord a → ¬ IsKeyword a → IsWord n → IsAccess r acc →
      Documented (["watch".toList, a, n] ++ r) (.watchSet a n acc)
  | watchSetN (n) : IsNumber n →
      Documented ["watch".toList, "set".toList, '#' :: n] (.watchSetN n)
  | watchClear (a r acc) : IsWord a → IsAccess r acc →
      Documented (["watch".toList, "clear".toList, a] ++ r) (.watchClear a acc)
  | watchClearN (n) : IsNumber n →
      Documented ["watch".toList, "clear".toList, '#' :: n] (.watchClearN n)
  | watchClearAll : Documented ["watch".toList, "clear-all".toList] .watchClearAll
  | watchList : Documented ["watch".toList] .watchList
  | actionEnable (n) : IsNumber n →
      Documented ["action".toList, "enable".toList, '#' :: n] (.actionEnable n)
  | actionDisable (n) : IsNumber n →
      Documented ["action".toList, "disable".toList, '#' :: n] (.actionDisable n)
  | actionClear (n) : IsNumber n →
      Documented ["action".toList, "clear".toList, '#' :: n] (.actionClear n)
  | actionClearAll : Documented ["action".toList, "clear-all".toList] .actionClearAll
  | actionList : Documented ["action".toList] .actionList
  | branchTrace : Documented ["branch-trace".toList] .branchTrace
  | exec (f) : f ≠ [] → Documented ["exec".toList, f] (.exec f)
  | help : Documented ["help".toList] .help

/-- Some blank of the line is not a space. -/
def HasTab (s : Text) : Prop := ∃ c ∈ s, blank c = true ∧ c ≠ ' '

/-- The rows the code does not follow, for the line `s`; see the violated theorems. -/
inductive Deviates (s : Text) : List Text → Cmd → Prop
  /-- `core` without a number. -/
  | core0 : Deviates s ["core".toList] (.core 0)
  /-- Numbers with a leading zero, or too large. -/
  | core (n) : n.head? = some '0' ∨ 2 ^ 31 ≤ value n → Deviates s ["core".toList, n] (.core (value n))
  | step (n) : n.head? = some '0' ∨ 2 ^ 31 ≤ value n → Deviates s ["step".toList, n] (.step (value n))
  /-- `vreg set` without an index or without a format. -/
  | vregSet (t n l w v) : Deviates s ["vreg".toList, "set".toList, t, l :: w, v] (.vregSet n [] [l] w v)
  | vregSetD (t n i v) :
      Deviates s ["vreg".toList, "set".toList, t, v] (.vregSet n i "x".toList "32".toList v)
  /-- `mem set` without a format. -/
  | memSet (a v) : Deviates s ["mem".toList, "set".toList, a, v] (.memSet a [] v)
  /-- `break set`: the breakpoint is not listed. -/
  | breakSet (a) : Deviates s ["break".toList, "set".toList, a] (.breakSet a true)
  /-- `watch set ... rw`: only writes are watched. -/
  | watchSetRw (a n) :
      Deviates s ["watch".toList, "set".toList, a, n, "rw".toList] (.watchSet a n .loadStore)
  /-- A tab (or another blank that is no space) in a line that ends in `r` or `rw`. -/
  | watchTab (ts t cmd) : HasTab s → t = "r".toList ∨ t = "rw".toList →
      Deviates s ("watch".toList :: ts ++ [t]) cmd
  /-- Action points take `*N` where the help says `#N`. -/
  | actionEnable (n) : Deviates s ["action".toList, "enable".toList, '#' :: n] (.actionEnable n)
  | actionDisable (n) : Deviates s ["action".toList, "disable".toList, '#' :: n] (.actionDisable n)
  | actionClear (n) : Deviates s ["action".toList, "clear".toList, '#' :: n] (.actionClear n)
  /-- A blank after the file name becomes part of it. -/
  | exec (f c) : s.getLast? = some c → blank c = true → Deviates s ["exec".toList, f] (.exec f)

end Verif.Shell.Spec
