import Verif.Stats.Model
import Verif.Shell.Spec
import Verif.ShellMem.Spec
/-
What `stats` means (usage text, riscv_instrumentation_control.cc:141-155).
-/
namespace Verif.Stats.Spec
open Verif.Shell (Text)
open Verif.Shell.Spec (tokens IsWord)
open Verif.ShellMem.Spec (Denotes)

inductive What where
  | counters | iprofile | mprofile | all
deriving DecidableEq

/-- Enable or disable what. -/
structure Req where
  on : Bool
  what : What
deriving DecidableEq

def What.text : What → Text
  | .counters => "counters".toList
  | .iprofile => "iprofile".toList
  | .mprofile => "mprofile".toList
  | .all => "all".toList

def verb : Bool → Text
  | true => "enable".toList
  | false => "disable".toList

/-- The words of a line that ask for `r`, at once or at the place named. -/
inductive Asks : List Text → Req → Option Text → Prop
  | now (r : Req) : Asks ["stats".toList, verb r.on, r.what.text] r none
  | at (r : Req) (p : Text) : IsWord p → Asks ["stats".toList, verb r.on, r.what.text, p] r (some p)

/-- The three switches, and what is to be done at which address. -/
structure State where
  counters : Bool
  iprofile : Bool
  mprofile : Bool
  plans : List (BitVec 64 × Req)

def State.do (S : State) (r : Req) : State :=
  { S with
    counters := if r.what = .counters ∨ r.what = .all then r.on else S.counters
    iprofile := if r.what = .iprofile ∨ r.what = .all then r.on else S.iprofile
    mprofile := if r.what = .mprofile ∨ r.what = .all then r.on else S.mprofile }

/-- What is planned for an address. -/
def State.planned (S : State) (pc : BitVec 64) : List Req := (S.plans.filter fun p => p.1 = pc).map (·.2)

/-- A line or an instruction. A place that stands for no address, and a place the simulator refuses, change
nothing; nor do other lines. -/
inductive Step (syms : ShellMem.Symbols) : State → Ev → State → Prop
  | now {S t r a} : Asks (tokens t) r none → Step syms S (.line t a) (S.do r)
  | later {S t r p n id} : Asks (tokens t) r (some p) → Denotes syms 0 p n →
      Step syms S (.line t (some id)) { S with plans := S.plans ++ [(BitVec.ofNat 64 n, r)] }
  | refused {S t r p} : Asks (tokens t) r (some p) → Step syms S (.line t none) S
  | unknown {S t r p a} : Asks (tokens t) r (some p) → (∀ n, ¬ Denotes syms 0 p n) →
      (∀ f, syms = some f → f p = none) → Step syms S (.line t a) S
  | other {S t a} : (∀ r p, ¬ Asks (tokens t) r p) → Step syms S (.line t a) S
  | exec {S pc e} : Step syms S (.exec pc e) ((S.planned pc).foldl State.do S)

/-- A session. -/
inductive Run (syms : ShellMem.Symbols) : State → List Ev → State → Prop
  | nil {S} : Run syms S [] S
  | cons {S S' S'' e es} : Step syms S e S' → Run syms S' es S'' → Run syms S (e :: es) S''

/-- The number of instructions executed. -/
def executed : List Ev → Nat
  | [] => 0
  | .exec _ _ :: es => executed es + 1
  | .line _ _ :: es => executed es

/-- The number of those that raise an exception, and so do not retire. -/
def raised : List Ev → Nat
  | [] => 0
  | .exec _ true :: es => raised es + 1
  | _ :: es => raised es

/-- In a session from `S`, nothing switches the counters, and no plan is carried out. -/
inductive Calm (syms : ShellMem.Symbols) : State → List Ev → Prop
  | nil {S} : Calm syms S []
  | line {S S' t a es} : Step syms S (.line t a) S' → S'.counters = S.counters → Calm syms S' es →
      Calm syms S (.line t a :: es)
  | exec {S pc e es} : S.planned pc = [] → Calm syms S es → Calm syms S (.exec pc e :: es)

/-- The manager never hands out an id that is in use at the address. -/
def Fresh {w : Nat} (syms : ShellMem.Symbols) (s : St w) : List Ev → Prop
  | [] => True
  | e :: es =>
    (∀ t id cmd what name a, e = .line t (some id) → perform syms t = .later cmd what name a →
      ∀ x ∈ s.acts.manager, ¬ (x.address = a ∧ x.id = id))
    ∧ Fresh syms (Stats.step syms s e) es

/-- The simulator's state is that of the specification: every counter of the core is enabled or not as it
should be, and so are the profilers; the functions set are those planned. -/
structure Fits {w : Nat} (S : State) (s : St w) : Prop where
  counters : ∀ p ∈ s.sw.map, p.2 = S.counters
  cycles : ∃ p ∈ s.sw.map, p.1 = "num_cycles"
  instructions : ∃ p ∈ s.sw.map, p.1 = "num_instructions"
  noPc : ∀ p ∈ s.sw.map, p.1 ≠ "pc"
  iprofile : s.sw.pc = S.iprofile
  mprofile : s.sw.mem = S.mprofile
  plans : s.acts.manager.map (fun x => (x.address, s.fn x.address x.id))
    = S.plans.map fun p => (p.1, verb p.2.on, p.2.what.text)
  enabled : ∀ x ∈ s.acts.manager, x.enabled = true

end Verif.Stats.Spec
