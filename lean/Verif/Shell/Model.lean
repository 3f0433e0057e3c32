import Verif.Shell.Regex
/-
How the command shell reads a command line (riscv/debug_command_shell.cc:52-92, 314-1096): the
regular expressions in the order in which the lines are matched against them, and what is made of
the groups. Commands added with `AddCommand` are tried before these and are not modelled.
-/
namespace Verif.Shell

/-! ## The regular expressions (debug_command_shell.cc:53-92) -/

def ws : Re := .star sp
def gap : Re := .plus sp

/-- `r1\s+r2\s+ ... rn` followed by `tail`. -/
def words : List Re → Re → Re
  | [], tail => tail
  | [r], tail => .seq r tail
  | r :: rs, tail => .seq r (.seq gap (words rs tail))

/-- `\s*r1\s+ ... \s+rn\s*`. -/
def line (rs : List Re) : Re := .seq ws (words rs ws)

def k (s : String) : Re := .lit s.toList

/-- `(\d+)`, `(\w+)`, `(\$?\w+)`, `(\$?(\w|\.)+)`. -/
def num : Re := .grp (.plus dig)
def word : Re := .grp (.plus wrd)
def dname : Re := .grp (.seq (.opt (k "$")) (.plus wrd))
def dotted : Re := .grp (.seq (.opt (k "$")) (.plusLast (fun c => wrd c || c = '.')))

def oneOf (s : String) : Char → Bool := fun c => s.toList.contains c

/-- `[foduxX]\d+`. -/
def fmtF : Re := .seq (.one (oneOf "foduxX")) (.plus dig)
/-- `[oduxX]\d+`. -/
def fmtI : Re := .seq (.one (oneOf "oduxX")) (.plus dig)
/-- `(\s+[foduxX]\d+)?\s*`. -/
def fmtTail : Re := .seq (.opt (.grp (.seq gap fmtF))) ws
/-- `(\s+r|\s+w|\s+rw)?\s*`. -/
def rwTail : Re :=
  .seq (.opt (.grp (.alt (.seq gap (k "r")) (.alt (.seq gap (k "w")) (.seq gap (k "rw")))))) ws
/-- `(?:\s+([foduxX]\d+|i)?)?\s*`. -/
def memTail : Re := .seq (.opt (.seq gap (.opt (.grp (.alt fmtF (k "i")))))) ws
/-- `(8|16|32|64)`. -/
def width : Re := .grp (.alt (k "8") (.alt (k "16") (.alt (k "32") (k "64"))))

def quitRe : Re := line [k "quit"]
def coreRe : Re := line [k "core", num]
def runRe : Re := line [.alt (k "run") (k "c")]
def runFreeRe : Re := line [k "run", k "free"]
def waitRe : Re := line [k "wait"]
def step1Re : Re := line [k "step"]
def stepNRe : Re := line [k "step", num]
def haltRe : Re := line [k "halt"]
def readRegRe : Re := .seq ws (words [k "reg", k "get", dotted] fmtTail)
def readReg2Re : Re := .seq ws (words [k "reg", dotted] fmtTail)
def writeRegRe : Re := line [k "reg", k "set", dname, word]
def rdVregRe : Re :=
  .seq ws (.seq (k "vreg") (.seq (.opt (.seq gap (k "get"))) (.seq gap (.seq dname
    (.seq (.opt (.seq (.opt (.seq ws (.seq (k ":") num)))
                      (.opt (.seq gap (.opt (.seq (.grp (.one (oneOf "oduxX"))) width)))))) ws)))))
def wrVregRe : Re :=
  .seq ws (words [k "vreg", k "set", dname]
    (.seq ws (words [.seq (k ":") num, .seq (.grp (.one (oneOf "oduxX"))) width, word] ws)))
def readMemRe : Re := .seq ws (words [k "mem", k "get", word] memTail)
def readMem2Re : Re := .seq ws (words [k "mem", word] memTail)
def writeMemRe : Re :=
  .seq ws (words [k "mem", k "set", word] (.seq gap (.seq (.opt (.grp fmtI))
    (.seq gap (.seq word ws)))))
def setBreakRe : Re := line [k "break", k "set", dname]
def setBreak2Re : Re := line [k "break", dname]
def setBreakNRe : Re :=
  .seq ws (.seq (k "break") (.seq gap (.seq (.opt (.grp (.seq (k "set") gap)))
    (.seq (k "#") (.seq num ws)))))
def listBreakRe : Re := line [k "break"]
def clearBreakNRe : Re := line [k "break", k "clear", .seq (k "#") num]
def clearBreakRe : Re := line [k "break", k "clear", dname]
def clearAllBreakRe : Re := line [k "break", k "clear-all"]
def setWatchRe : Re := .seq ws (words [k "watch", k "set", word, word] rwTail)
def setWatch2Re : Re := .seq ws (words [k "watch", word, word] rwTail)
def setWatchNRe : Re :=
  .seq ws (.seq (k "watch") (.seq gap (.seq (.opt (.grp (.seq (k "set") gap)))
    (.seq (k "#") (.seq num ws)))))
def listWatchRe : Re := line [k "watch"]
def clearWatchRe : Re := .seq ws (words [k "watch", k "clear", word] rwTail)
def clearWatchNRe : Re := line [k "watch", k "clear", .seq (k "#") num]
def clearAllWatchRe : Re := line [k "watch", k "clear-all"]
def listActionRe : Re := line [k "action"]
def enableActionNRe : Re := line [k "action", k "enable", .seq (k "*") num]
def disableActionNRe : Re := line [k "action", k "disable", .seq (k "*") num]
def clearActionNRe : Re := line [k "action", k "clear", .seq (k "*") num]
def clearAllActionRe : Re := line [k "action", k "clear-all"]
def branchTraceRe : Re := line [k "branch-trace"]
def execRe : Re := .seq ws (.seq (k "exec") (.seq gap (.seq (.grp (.plus dot)) ws)))
def emptyRe : Re := .seq ws (.opt (.seq (k "#") (.star dot)))
def helpRe : Re := line [k "help"]

/-! ## Reading a line -/

/-- `AccessType`. -/
inductive Access where
  | load | store | loadStore
deriving DecidableEq, Repr

/-- What a line asks for. -/
inductive Cmd where
  | quit
  | core (n : Nat)
  | run
  | runFree
  | wait
  | step (n : Nat)
  | halt
  | regGet (name : Text)
  | regSet (name value : Text)
  | vregGet (name index format width : Text)
  | vregSet (name index format width value : Text)
  | memGet (address format : Text)
  | memSet (address format value : Text)
  /-- `listed`: the breakpoint is given a number and kept in the list. -/
  | breakSet (address : Text) (listed : Bool)
  | breakSetN (n : Text)
  | breakClear (address : Text)
  | breakClearN (n : Text)
  | breakClearAll
  | breakList
  | watchSet (address length : Text) (access : Access)
  | watchSetN (n : Text)
  | watchClear (address : Text) (access : Access)
  | watchClearN (n : Text)
  | watchClearAll
  | watchList
  | actionList
  | actionEnable (n : Text)
  | actionDisable (n : Text)
  | actionClear (n : Text)
  | actionClearAll
  | branchTrace
  | exec (file : Text)
  | help
  | unrecognized
deriving DecidableEq, Repr

def digitsValue (base : Nat) (t : Text) : Nat := t.foldl (fun n c => n * base + (c.toNat - 48)) 0

/-- `RE2::CRadix` into an `int`, for a text of digits: octal after a leading 0, else decimal; fails
on a digit that is not octal and on numbers an `int` cannot hold. -/
def cradix (t : Text) : Option Nat :=
  match t with
  | '0' :: _ =>
    if t.all (fun c => c.toNat ≤ 55) then
      (if digitsValue 8 t < 2 ^ 31 then some (digitsValue 8 t) else none)
    else none
  | _ => if digitsValue 10 t < 2 ^ 31 then some (digitsValue 10 t) else none

/-- The text of a group; RE2 leaves the string empty if the group took no part. -/
def cap (c : Caps) (i : Nat) : Text := ((c[i]?).getD none).getD []

/-- `rw_value.substr(rw_value.find_first_not_of(' '))` (debug_command_shell.cc:751, 881, 929). -/
def strip (t : Text) : Text := t.dropWhile (· = ' ')

/-- The access of `watch set` (debug_command_shell.cc:750-758). -/
def access1 (t : Text) : Access :=
  if strip t = "r".toList then .load
  else if strip t = "rw".toList then .store
  else .store

/-- The access of `watch` and `watch clear` (debug_command_shell.cc:880-888, 927-935). -/
def access2 (t : Text) : Access :=
  if strip t = "r".toList then .load
  else if strip t = "rw".toList then .loadStore
  else .store

/-- One regular expression: what it makes of the line, if it matches. -/
structure Rule where
  re : Re
  make : Caps → Option Cmd

/-- The first rule that applies. -/
def firstRule : List Rule → Text → Cmd
  | [], _ => .unrecognized
  | r :: rs, s =>
    match (full r.re s).bind r.make with
    | some c => c
    | none => firstRule rs s

/-- The commands in the order in which a line is tried against them
(debug_command_shell.cc:314-1096). -/
def rules : List Rule :=
  [ ⟨quitRe, fun _ => some .quit⟩,                                            -- 314-315
    ⟨coreRe, fun c => (cradix (cap c 0)).map .core⟩,                          -- 317-329
    ⟨runRe, fun _ => some .run⟩,                                              -- 331-344
    ⟨runFreeRe, fun _ => some .runFree⟩,                                      -- 346-354
    ⟨waitRe, fun _ => some .wait⟩,                                            -- 356-364
    ⟨step1Re, fun _ => some (.step 1)⟩,                                       -- 366-378
    ⟨stepNRe, fun c => (cradix (cap c 0)).map .step⟩,                         -- 380-393
    ⟨haltRe, fun _ => some .halt⟩,                                            -- 395-403
    ⟨readRegRe, fun c => some (.regGet (cap c 0))⟩,                           -- 405-419
    ⟨writeRegRe, fun c => some (.regSet (cap c 0) (cap c 1))⟩,                -- 421-439
    ⟨rdVregRe, fun c => some (.vregGet (cap c 0) (cap c 1)
        (if (cap c 2).isEmpty then "x".toList else cap c 2)
        (if (cap c 3).isEmpty then "32".toList else cap c 3))⟩,               -- 441-486
    ⟨wrVregRe, fun c => some (.vregSet (cap c 0) (cap c 1) (cap c 2) (cap c 3) (cap c 4))⟩, -- 488-527
    ⟨readMemRe, fun c => some (.memGet (cap c 0) (cap c 1))⟩,                 -- 529-536
    ⟨writeMemRe, fun c => some (.memSet (cap c 0) (cap c 1) (cap c 2))⟩,      -- 538-544
    ⟨setBreakRe, fun c => some (.breakSet (cap c 0) false)⟩,                  -- 546-569
    ⟨setBreakNRe, fun c => some (.breakSetN (cap c 1))⟩,                      -- 571-598
    ⟨clearBreakNRe, fun c => some (.breakClearN (cap c 0))⟩,                  -- 600-624
    ⟨clearAllBreakRe, fun _ => some .breakClearAll⟩,                          -- 626-637
    ⟨clearBreakRe, fun c => some (.breakClear (cap c 0))⟩,                    -- 639-662
    ⟨listBreakRe, fun _ => some .breakList⟩,                                  -- 664-683
    ⟨helpRe, fun _ => some .help⟩,                                            -- 685-693
    ⟨readReg2Re, fun c => some (.regGet (cap c 0))⟩,                          -- 695-709
    ⟨setBreak2Re, fun c => some (.breakSet (cap c 0) true)⟩,                  -- 711-737
    ⟨setWatchRe, fun c => some (.watchSet (cap c 0) (cap c 1) (access1 (cap c 2)))⟩,  -- 739-785
    ⟨setWatchNRe, fun c => some (.watchSetN (cap c 1))⟩,                      -- 787-818
    ⟨clearWatchNRe, fun c => some (.watchClearN (cap c 0))⟩,                  -- 820-846
    ⟨clearAllWatchRe, fun _ => some .watchClearAll⟩,                          -- 848-867
    ⟨clearWatchRe, fun c => some (.watchClear (cap c 0) (access2 (cap c 1)))⟩, -- 869-914
    ⟨setWatch2Re, fun c => some (.watchSet (cap c 0) (cap c 1) (access2 (cap c 2)))⟩, -- 916-961
    ⟨listWatchRe, fun _ => some .watchList⟩,                                  -- 963-997
    ⟨readMem2Re, fun c => some (.memGet (cap c 0) (cap c 1))⟩,                -- 999-1006
    ⟨listActionRe, fun _ => some .actionList⟩,                                -- 1007-1011
    ⟨enableActionNRe, fun c => some (.actionEnable (cap c 0))⟩,               -- 1012-1016
    ⟨disableActionNRe, fun c => some (.actionDisable (cap c 0))⟩,             -- 1017-1021
    ⟨clearActionNRe, fun c => some (.actionClear (cap c 0))⟩,                 -- 1022-1026
    ⟨clearAllActionRe, fun _ => some .actionClearAll⟩,                        -- 1027-1030
    ⟨branchTraceRe, fun _ => some .branchTrace⟩,                              -- 1032-1076
    ⟨execRe, fun c => some (.exec (cap c 0))⟩ ]                               -- 1078-1090

/-- What the shell makes of a line. -/
def read (s : Text) : Cmd := firstRule rules s

end Verif.Shell
