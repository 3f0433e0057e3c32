import Verif.Plic.Spec
import Verif.Shell.Regex

/-!
# What the configuration texts say (riscv_plic.h:68-83), and which registers an access concerns
-/

namespace Verif.PlicBus.Spec

open Verif.Shell (Text sp dig)
open Verif.Plic (Plic)

/-- The number a numeral stands for. -/
def value (t : Text) : Nat := t.foldl (fun n c => 10 * n + (c.toNat - 48)) 0

/-- A numeral, for a number an `int` can hold. -/
def Numeral (t : Text) : Prop := t ≠ [] ∧ (∀ c ∈ t, dig c = true) ∧ value t < 2 ^ 31

def Blank (t : Text) : Prop := ∀ c ∈ t, sp c = true

/-- `<source>=<priority>`, with blanks. -/
structure Source where
  source : Text
  priority : Text
  b1 : Text
  b2 : Text
  b3 : Text

def Source.text (i : Source) : Text := i.source ++ i.b1 ++ '=' :: (i.b2 ++ i.priority ++ i.b3)

def Source.Ok (nS : Nat) (i : Source) : Prop :=
  Numeral i.source ∧ Numeral i.priority ∧ Blank i.b1 ∧ Blank i.b2 ∧ Blank i.b3 ∧ value i.source < nS

/-- A list separated by semicolons, with or without one at the end. -/
def sourceText : List Source → Bool → Text
  | [], _ => []
  | [i], final => i.text ++ if final then [';'] else []
  | i :: l, final => i.text ++ ';' :: sourceText l final

/-- The priority the list gives to a source. -/
def priority (l : List Source) (s : Nat) : Option Nat :=
  ((l.filter fun i => value i.source = s).getLast?).map fun i => value i.priority

/-- `<source>,<enable>`, with blanks. -/
structure Enable where
  source : Text
  enable : Bool
  b1 : Text
  b2 : Text
  b3 : Text
  b4 : Text

/-- `<context>=<threshold>,(<source>,<enable>)+`, with blanks. -/
structure Context where
  context : Text
  threshold : Text
  enables : List Enable
  b1 : Text
  b2 : Text
  b3 : Text
  b4 : Text

/-- The pair, what separates it from the next, and the blanks after that. -/
def Enable.text (i : Enable) (sep : Char) : Text :=
  i.source ++ i.b1 ++ ',' :: (i.b2 ++ (if i.enable then '1' else '0') :: (i.b3 ++ sep :: i.b4))

/-- The pairs of a context, with the semicolon after them. -/
def enablesText : List Enable → Text
  | [] => []
  | [i] => i.text ';'
  | i :: l => i.text ',' ++ enablesText l

def Context.text (i : Context) : Text :=
  i.context ++ i.b1 ++ '=' :: (i.b2 ++ i.threshold ++ i.b3 ++ ',' :: (i.b4 ++ enablesText i.enables))

/-- The list of contexts, each with its semicolon. -/
def contextText (l : List Context) : Text := l.flatMap Context.text

def Enable.Ok (nS : Nat) (i : Enable) : Prop :=
  Numeral i.source ∧ value i.source < nS ∧ Blank i.b1 ∧ Blank i.b2 ∧ Blank i.b3 ∧ Blank i.b4

def Context.Ok (nS nC : Nat) (i : Context) : Prop :=
  Numeral i.context ∧ Numeral i.threshold ∧ value i.context < nC ∧ i.enables ≠ [] ∧
    (∀ e ∈ i.enables, e.Ok nS) ∧ Blank i.b1 ∧ Blank i.b2 ∧ Blank i.b3 ∧ Blank i.b4

/-- The threshold the list gives to a context. -/
def threshold (l : List Context) (c : Nat) : Option Nat :=
  ((l.filter fun i => value i.context = c).getLast?).map fun i => value i.threshold

/-- Whether the list enables a source for a context, if it says so. -/
def enabled (l : List Context) (c s : Nat) : Option Bool :=
  ((((l.filter fun i => value i.context = c).flatMap Context.enables).filter fun e =>
    value e.source = s).getLast?).map Enable.enable

/-- The PLIC is configured as the texts say, and otherwise as before. -/
structure Configured (p q : Plic) (ss : List Source) (cs : List Context) : Prop where
  prio : ∀ s, q.prio s = ((priority ss s).map (BitVec.ofNat 32)).getD (p.prio s)
  thresh : ∀ c, q.thresh c = ((threshold cs c).map (BitVec.ofNat 32)).getD (p.thresh c)
  enabled : ∀ c s, Plic.Spec.enabled q c s = (enabled cs c s).getD (Plic.Spec.enabled p c s)
  pending : q.pend = p.pend
  gateways : q.ready = p.ready ∧ q.gpend = p.gpend
  claims : q.claimed = p.claimed
  lines : q.irq = p.irq ∧ q.hasIf = p.hasIf
  sizes : q.nS = p.nS ∧ q.nC = p.nC

end Verif.PlicBus.Spec
