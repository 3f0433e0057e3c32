import Verif.RunLoop.Spec
/-
C54: action points and breakpoints are transparent to the program. Violated for action points; proved for
execution that does not reach an action point, and for stopping at and resuming from breakpoints.
-/
namespace Verif.RunLoop
open Spec

variable {σ : Type}

theorem setF_same (f : BitVec 64 → Bool) (a : BitVec 64) : setF f a (f a) = f := by
  funext b
  unfold setF
  split
  · rename_i h; rw [h]
  · rfl

/-- The instruction part of a turn at an address without a breakpoint instruction. -/
theorem turnExec_plain (M : Machine σ) (t : Top σ) (pc : BitVec 64) (hp : t.patched pc = false) :
    (turnExec M t pc).2 = (plain M t.arch pc).2 ∧
    ∃ v, (turnExec M t pc).1 = { t with
      arch := (plain M t.arch pc).1, pc := v, log := pc :: t.log
      paused := t.paused || t.halted, instret := t.instret + 1 } := by
  unfold turnExec plain execute
  simp only [hp, Bool.false_eq_true, if_false]
  unfold effect
  cases hb : (M.exec t.arch pc).2 with
  | none =>
    simp only [checkInterrupt]
    cases hi : M.intr (M.tick (M.exec t.arch pc).1) with
    | none => simp
    | some f => simp
  | some v =>
    simp only [checkInterrupt]
    cases hi : M.intr (M.tick (M.exec t.arch pc).1) with
    | none => simp
    | some f => simp

theorem turn_plain (M : Machine σ) (t : Top σ) (pc : BitVec 64) (hp : t.patched pc = false)
    (h1 : t.paused = false) (h2 : t.halted = false) :
    ∃ v, turn M t pc = ⟨{ t with
      arch := (plain M t.arch pc).1, pc := v, log := pc :: t.log, instret := t.instret + 1 },
      (plain M t.arch pc).2, (plain M t.arch pc).2, false⟩ := by
  obtain ⟨e2, v, e1⟩ := turnExec_plain M t pc hp
  refine ⟨v, ?_⟩
  unfold turn
  simp only [e1, e2, h1, h2, Bool.or_false, if_true]

/-- `Step` when there is no breakpoint to step over. -/
theorem step_eq (M : Machine σ) (t : Top σ) (n : Nat) (hs : t.stepOver = false) :
    step M t n = stepFrom M { t with halted := false, paused := false, reason := .none } n := by
  show (if t.stepOver = true then _ else _) = _
  rw [if_neg (by rw [hs]; simp)]

/-- `Run` when there is no breakpoint to step over. -/
theorem run_eq (M : Machine σ) (t : Top σ) (n : Nat) (hs : t.stepOver = false) :
    run M t n = runLoop M { t with halted := false, paused := false, reason := .none } t.pc t.pc n := by
  unfold run
  rw [if_neg (by rw [hs]; simp)]

theorem path_succ (M : Machine σ) (x : σ × BitVec 64) (n : Nat) (l : List (BitVec 64)) :
    path M (plain M x.1 x.2) n ++ x.2 :: l = path M x (n + 1) ++ l := by
  simp [path, List.append_assoc]

/-- The loop of `Step` over `n` instructions without breakpoint instructions. -/
theorem stepLoop_plain (M : Machine σ) (n m : Nat) (t : Top σ) (pc next : BitVec 64)
    (hc : Clear M t (t.arch, pc) n) (h1 : t.paused = false) (h2 : t.halted = false)
    (hn : next = pc) :
    ∃ v, let x := (t.arch, pc)
      let t' := { t with arch := (plainN M x n).1, pc := v, log := path M x n ++ t.log,
                         instret := t.instret + n }
      stepLoop M t pc next (n + m) =
        ((stepLoop M t' (plainN M x n).2 (plainN M x n).2 m).1,
         (stepLoop M t' (plainN M x n).2 (plainN M x n).2 m).2 + n) := by
  subst hn
  induction n generalizing t next with
  | zero => exact ⟨t.pc, by simp [plainN, path]⟩
  | succ n ih =>
    have hp : t.patched next = false := hc 0 (by omega)
    obtain ⟨v, e⟩ := turn_plain M t next hp h1 h2
    let u : Top σ := { t with arch := (plain M t.arch next).1, pc := v, log := next :: t.log,
                              instret := t.instret + 1 }
    have hcu : Clear M u (u.arch, (plain M t.arch next).2) n := by
      intro k hk
      exact hc (k + 1) (by omega)
    obtain ⟨v', e'⟩ := ih u (plain M t.arch next).2 h1 h2 hcu
    refine ⟨v', ?_⟩
    simp only at e' ⊢
    rw [show n + 1 + m = (n + m) + 1 by omega, stepLoop, if_neg (by rw [h1]; simp), e]
    simp only [Bool.false_eq_true, if_false]
    rw [show stepLoop M { t with
        arch := (plain M t.arch next).1, pc := v, log := next :: t.log, instret := t.instret + 1 }
        (plain M t.arch next).2 (plain M t.arch next).2 (n + m) = _ from e']
    have e3 : u.instret + n = t.instret + (n + 1) := by
      show t.instret + 1 + n = _; omega
    have e4 : path M (u.arch, (plain M t.arch next).2) n ++ u.log
        = path M (t.arch, next) (n + 1) ++ t.log := path_succ M (t.arch, next) n t.log
    rw [e3, e4]
    show (_, _ + n + 1) = (_, _ + (n + 1))
    rfl

/-- C54 (nothing in the way): stepping `n` instructions, none of which is at an action point, executes
exactly the next `n` instructions of the program, whatever action points there are elsewhere. -/
theorem C54_step_partial (M : Machine σ) (t : Top σ) (n : Nat) (hs : t.stepOver = false)
    (hc : Clear M t (t.arch, t.pc) n) :
    (step M t n).2 = n ∧ Executed M t (step M t n).1 (t.arch, t.pc) n
      ∧ (step M t n).1.instret = t.instret + n := by
  let t0 : Top σ := { t with halted := false, paused := false, reason := .none }
  obtain ⟨v, e⟩ := stepLoop_plain M n 0 t0 t.pc t.pc hc rfl rfl rfl
  simp only [Nat.add_zero, stepLoop] at e
  have es : step M t n = (finish (stepLoop M t0 t.pc t.pc n).1, (stepLoop M t0 t.pc t.pc n).2) := by
    rw [step_eq M t _ hs]; rfl
  rw [es, e]
  refine ⟨by simp, ⟨rfl, ?_, rfl, rfl, rfl, rfl⟩, rfl⟩
  simp [finish, t0]

/-- C54 (stepping past): at an address with a breakpoint instruction, stepping past it executes exactly
the program's instruction there and leaves the breakpoint in place. -/
theorem C54_step_past (M : Machine σ) (t : Top σ) (hp : t.patched t.pc = true)
    (hk : t.known t.pc = true) :
    Executed M t (stepPast M t) (t.arch, t.pc) 1 ∧ (stepPast M t).instret = t.instret + 1
      ∧ (stepPast M t).stepOver = t.stepOver ∧ (stepPast M t).halted = t.halted
      ∧ (stepPast M t).paused = t.paused ∧ (stepPast M t).reason = t.reason := by
  have e0 : writeOriginal t t.pc = { t with patched := setF t.patched t.pc false } := by
    unfold writeOriginal; rw [if_pos hk]
  have ep : setF (setF t.patched t.pc false) t.pc true = t.patched := by
    funext b
    unfold setF
    split
    · rename_i h; rw [h, hp]
    · rfl
  have ek : setF t.known t.pc true = t.known := by rw [← hk, setF_same]
  have eu : setF t.patched t.pc false t.pc = false := by simp [setF]
  unfold stepPast
  simp only [e0]
  unfold execute
  simp only [eu, Bool.false_eq_true, if_false]
  unfold effect
  cases hb : (M.exec t.arch t.pc).2 with
  | none =>
    simp only [checkInterrupt, writeBreakpoint, ep, ek]
    cases hi : M.intr (M.tick (M.exec t.arch t.pc).1) with
    | none =>
      refine ⟨⟨?_, ?_, ?_, rfl, rfl, rfl⟩, rfl, rfl, rfl, rfl, rfl⟩ <;>
        simp [plainN, plain, hb, hi, path]
    | some f =>
      refine ⟨⟨?_, ?_, ?_, rfl, rfl, rfl⟩, rfl, rfl, rfl, rfl, rfl⟩ <;>
        simp [plainN, plain, hb, hi, path]
  | some v =>
    simp only [checkInterrupt, writeBreakpoint, ep, ek]
    cases hi : M.intr (M.tick (M.exec t.arch t.pc).1) with
    | none =>
      refine ⟨⟨?_, ?_, ?_, rfl, rfl, rfl⟩, rfl, rfl, rfl, rfl, rfl⟩ <;>
        simp [plainN, plain, hb, hi, path]
    | some f =>
      refine ⟨⟨?_, ?_, ?_, rfl, rfl, rfl⟩, rfl, rfl, rfl, rfl, rfl⟩ <;>
        simp [plainN, plain, hb, hi, path]

/-- C54 (resuming): resuming from a breakpoint with `n + 1` steps executes exactly the next `n + 1`
instructions of the program, starting with the one under the breakpoint, if the others are not at
action points. -/
theorem C54_resume_partial (M : Machine σ) (t : Top σ) (n : Nat) (hs : t.stepOver = true)
    (hp : t.patched t.pc = true) (hk : t.known t.pc = true)
    (hc : Clear M t (plain M t.arch t.pc) n) :
    (step M t (n + 1)).2 = n + 1 ∧ Executed M t (step M t (n + 1)).1 (t.arch, t.pc) (n + 1)
      ∧ (step M t (n + 1)).1.instret = t.instret + (n + 1) := by
  let t0 : Top σ := { t with halted := false, paused := false, reason := .none, stepOver := false }
  obtain ⟨hx, hi, hso, hh, hpa, hr⟩ := C54_step_past M t0 hp hk
  generalize hu : stepPast M t0 = u at hx hi hso hh hpa hr
  have hh : u.halted = false := hh
  have hpa : u.paused = false := hpa
  have ea : u.arch = (plain M t.arch t.pc).1 := hx.arch
  have epc : u.pc = (plain M t.arch t.pc).2 := hx.pc
  have hcu : Clear M u (u.arch, u.pc) n := by
    intro k hk'
    rw [ea, epc, hx.patched]
    exact hc k hk'
  obtain ⟨v, e⟩ := stepLoop_plain M n 0 u u.pc u.pc hcu hpa hh rfl
  simp only [Nat.add_zero, stepLoop] at e
  have es : step M t (n + 1) = (finish (stepLoop M u u.pc u.pc n).1, (stepLoop M u u.pc u.pc n).2 + 1) := by
    unfold step
    simp only [hs, if_true]
    rw [show stepPast M { t with halted := false, paused := false, reason := .none, stepOver := false }
      = u from hu]
    have : (u.paused || u.halted) = u.paused := by rw [hh, Bool.or_false]
    rw [this, Nat.add_sub_cancel]
    rfl
  have hr : u.reason = .none := hr
  rw [es, e]
  refine ⟨by simp, ⟨?_, ?_, ?_, ?_, ?_, ?_⟩, ?_⟩
  · simp only [finish, hh, Bool.false_eq_true, if_false]
    rw [ea, epc]; rfl
  · simp only [finish, hh, Bool.false_eq_true, if_false, hr]
    rw [ea, epc]; simp [plainN]
  · simp only [finish, hh, Bool.false_eq_true, if_false]
    rw [hx.log, ea, epc]
    simp [path, t0]
  · simp only [finish, hh, Bool.false_eq_true, if_false]; exact hx.patched
  · simp only [finish, hh, Bool.false_eq_true, if_false]; exact hx.active
  · simp only [finish, hh, Bool.false_eq_true, if_false]; exact hx.known
  · simp only [finish, hh, Bool.false_eq_true, if_false]
    rw [hi]
    show t.instret + 1 + n = _
    omega

/-- C54 (stopping): if the first `k` instructions are not at action points and the next is at a
breakpoint, stepping further than `k` stops there with the breakpoint as reason, `k` instructions
executed and the pc at the breakpoint. Partial: the breakpoint instruction itself lets a cycle pass,
counts as a step and as an instruction retired, and no interrupt may become available in that cycle. -/
theorem C54_stop_partial (M : Machine σ) (t : Top σ) (k n : Nat) (hs : t.stepOver = false)
    (hc : Clear M t (t.arch, t.pc) k) (hkn : k < n)
    (hb : t.patched (plainN M (t.arch, t.pc) k).2 = true)
    (ha : t.active (plainN M (t.arch, t.pc) k).2 = some .breakpoint)
    (hi : M.intr (M.tick (plainN M (t.arch, t.pc) k).1) = none) :
    let t' := (step M t n).1
    (step M t n).2 = k + 1 ∧ t'.arch = M.tick (plainN M (t.arch, t.pc) k).1
      ∧ t'.pc = (plainN M (t.arch, t.pc) k).2 ∧ t'.log = path M (t.arch, t.pc) k ++ t.log
      ∧ t'.patched = t.patched ∧ t'.active = t.active ∧ t'.known = t.known
      ∧ t'.reason = .softwareBreakpoint ∧ t'.halted = true ∧ t'.stepOver = true
      ∧ t'.instret = t.instret + k + 1 := by
  let t0 : Top σ := { t with halted := false, paused := false, reason := .none }
  obtain ⟨m, rfl⟩ : ∃ m, n = k + (m + 1) := ⟨n - k - 1, by omega⟩
  obtain ⟨v, e⟩ := stepLoop_plain M k (m + 1) t0 t.pc t.pc hc rfl rfl rfl
  have es : step M t (k + (m + 1)) = (finish (stepLoop M t0 t.pc t.pc (k + (m + 1))).1,
      (stepLoop M t0 t.pc t.pc (k + (m + 1))).2) := by
    rw [step_eq M t _ hs]; rfl
  simp only at e
  rw [show (t0.arch, t.pc) = (t.arch, t.pc) from rfl] at e
  generalize hx : plainN M (t.arch, t.pc) k = x at hb ha hi e
  have et : turn M { t0 with arch := x.1, pc := v, log := path M (t.arch, t.pc) k ++ t0.log, instret := t0.instret + k } x.2
      = ⟨{ t0 with
            arch := M.tick x.1, pc := x.2, log := path M (t.arch, t.pc) k ++ t0.log
            instret := t0.instret + k + 1, halted := true, paused := true
            reason := .softwareBreakpoint, stepOver := true }, x.2,
          x.2 + BitVec.ofNat 64 (M.size x.1 x.2), true⟩ := by
    have hb' : t0.patched x.2 = true := hb
    have ha' : t0.active x.2 = some .breakpoint := ha
    simp [turn, turnExec, execute, ebreakHandler, requestHalt, checkInterrupt, hb', ha', hi]
  have es2 : stepLoop M { t0 with arch := x.1, pc := v, log := path M (t.arch, t.pc) k ++ t0.log, instret := t0.instret + k } x.2 x.2 (m + 1)
      = (⟨{ t0 with
            arch := M.tick x.1, pc := x.2, log := path M (t.arch, t.pc) k ++ t0.log
            instret := t0.instret + k + 1, halted := true, paused := true
            reason := .softwareBreakpoint, stepOver := true }, x.2,
          x.2 + BitVec.ofNat 64 (M.size x.1 x.2), true⟩, 1) := by
    rw [stepLoop, if_neg (by simp [t0])]
    simp only [et, if_true]
  rw [es2] at e
  rw [es, e]
  refine ⟨by simp; omega, ?_⟩
  simp [finish, t0]

/-! ### Violations -/

/-- One turn at an action point: the program's instruction there is executed, and the loop goes on at
the same address. -/
theorem turn_action (M : Machine σ) (t : Top σ) (pc : BitVec 64) (hp : t.patched pc = true)
    (hk : t.known pc = true) (ha : t.active pc = some .action) (hi : ∀ s, M.intr s = none)
    (h1 : t.paused = false) (h2 : t.halted = false) :
    ∃ u s, turn M t pc = ⟨u, pc, pc + BitVec.ofNat 64 (M.size s pc), false⟩ ∧ u.patched = t.patched
      ∧ u.known = t.known ∧ u.active = t.active ∧ u.paused = false ∧ u.halted = false
      ∧ u.reason = .none ∧ u.log = pc :: t.log ∧ u.instret = t.instret + 2 := by
  have e : turnExec M t pc = ({ t with
      pc := pc, arch := M.tick t.arch, paused := true
      reason := .actionPoint, stepOver := true, instret := t.instret + 1 },
      pc + BitVec.ofNat 64 (M.size t.arch pc)) := by
    simp [turnExec, execute, ebreakHandler, requestHalt, checkInterrupt, hp, ha, hi]
  unfold turn
  simp only [e, Bool.true_eq_false, if_false, if_true]
  generalize hv : ({ t with
    pc := pc, arch := M.tick t.arch, paused := true, reason := .actionPoint
    stepOver := true, instret := t.instret + 1 } : Top σ) = v
  have hpv : v.patched v.pc = true := by rw [← hv]; exact hp
  have hkv : v.known v.pc = true := by rw [← hv]; exact hk
  obtain ⟨x, i, -, h, -, -⟩ := C54_step_past M v hpv hkv
  have hlog := x.log
  have hpt := x.patched
  have hkn := x.known
  have hac := x.active
  rw [← hv] at hlog hpt hkn hac i h
  refine ⟨_, t.arch, rfl, ?_, ?_, ?_, ?_, ?_, rfl, ?_, ?_⟩
  · rw [← hv]; exact hpt
  · rw [← hv]; exact hkn
  · rw [← hv]; exact hac
  · rw [← hv]; show (stepPast M _).halted = false; rw [h]; exact h2
  · rw [← hv]; show (stepPast M _).halted = false; rw [h]; exact h2
  · rw [← hv]; show (stepPast M _).log = _; rw [hlog]; rfl
  · rw [← hv]; show (stepPast M _).instret = _; rw [i]

theorem loop_action (M : Machine σ) (n : Nat) (t : Top σ) (pc next : BitVec 64)
    (hp : t.patched pc = true) (hk : t.known pc = true) (ha : t.active pc = some .action)
    (hi : ∀ s, M.intr s = none) (h1 : t.paused = false) (h2 : t.halted = false)
    (hr : t.reason = .none) :
    ∃ u v, stepLoop M t pc next n = (⟨u, pc, v, false⟩, n) ∧ runLoop M t pc next n = ⟨u, pc, v, false⟩
      ∧ (n = 0 ∧ v = next ∨ ∃ s, v = pc + BitVec.ofNat 64 (M.size s pc))
      ∧ u.log = List.replicate n pc ++ t.log ∧ u.reason = .none ∧ u.halted = false
      ∧ u.instret = t.instret + 2 * n := by
  induction n generalizing t next with
  | zero => exact ⟨t, next, rfl, by simp [runLoop, h1], Or.inl ⟨rfl, rfl⟩, rfl, hr, h2, rfl⟩
  | succ n ih =>
    obtain ⟨u, s, e, e1, e2, e3, e4, e5, e6, e7, e8⟩ := turn_action M t pc hp hk ha hi h1 h2
    obtain ⟨u', v', i1, i2, i3, i4, i5, i6, i7⟩ := ih u (pc + BitVec.ofNat 64 (M.size s pc))
      (by rw [e1]; exact hp) (by rw [e2]; exact hk) (by rw [e3]; exact ha) e4 e5 e6
    refine ⟨u', v', ?_, ?_, ?_, ?_, i5, i6, ?_⟩
    · rw [stepLoop, if_neg (by rw [h1]; simp)]
      simp only [e, Bool.false_eq_true, if_false, i1]
    · rw [runLoop, if_neg (by rw [h1]; simp)]
      simp only [e, Bool.false_eq_true, if_false, i2]
    · rcases i3 with ⟨-, h⟩ | h
      · exact Or.inr ⟨s, h⟩
      · exact Or.inr h
    · rw [i4, e7, List.replicate_succ', List.append_assoc]; rfl
    · rw [i7, e8]; omega

/-- An action point that does nothing is not transparent: `n` steps starting at one execute the
instruction under it `n` times, never any other, count two instructions retired for each, and leave the
pc just behind it even if it is a branch. Without interrupts, for every machine. -/
theorem C54_action_violated (M : Machine σ) (t : Top σ) (n : Nat) (hn : 0 < n)
    (hs : t.stepOver = false) (hp : t.patched t.pc = true) (hk : t.known t.pc = true)
    (ha : t.active t.pc = some .action) (hi : ∀ s, M.intr s = none) :
    (step M t n).1.log = List.replicate n t.pc ++ t.log
      ∧ (∃ s, (step M t n).1.pc = t.pc + BitVec.ofNat 64 (M.size s t.pc))
      ∧ (step M t n).1.instret = t.instret + 2 * n := by
  let t0 : Top σ := { t with halted := false, paused := false, reason := .none }
  obtain ⟨u, v, e, -, ev, el, er, eh, ei⟩ := loop_action M n t0 t.pc t.pc hp hk ha hi rfl rfl rfl
  have es : step M t n = (finish (stepLoop M t0 t.pc t.pc n).1, (stepLoop M t0 t.pc t.pc n).2) := by
    rw [step_eq M t _ hs]; rfl
  rw [es, e]
  simp only [finish, er, eh, Bool.false_eq_true, if_false, reduceCtorEq]
  refine ⟨el, ?_, ei⟩
  rcases ev with ⟨h, -⟩ | h
  · omega
  · exact h

/-- `Run` never gets past an action point that does nothing: after any number of turns of its loop it
is still running at that address, having executed the instruction there that many times. -/
theorem C54_run_violated (M : Machine σ) (t : Top σ) (n : Nat)
    (hs : t.stepOver = false) (hp : t.patched t.pc = true) (hk : t.known t.pc = true)
    (ha : t.active t.pc = some .action) (hi : ∀ s, M.intr s = none) :
    (run M t n).stop = false ∧ (run M t n).pc = t.pc
      ∧ (run M t n).top.log = List.replicate n t.pc ++ t.log := by
  let t0 : Top σ := { t with halted := false, paused := false, reason := .none }
  obtain ⟨u, v, -, e, -, el, -, -, -⟩ := loop_action M n t0 t.pc t.pc hp hk ha hi rfl rfl rfl
  have es : run M t n = runLoop M t0 t.pc t.pc n := by
    rw [run_eq M t n hs]
  rw [es, e]
  exact ⟨rfl, rfl, el⟩

/-- Clearing the breakpoint at which the core is stopped and stepping on leaves the breakpoint
instruction in memory, although no breakpoint is set there. For every machine. -/
theorem C54_cleared_violated (M : Machine σ) (t : Top σ) (hs : t.stepOver = true) :
    (step M (clearPoint t t.pc) 1).1.patched t.pc = true
      ∧ (step M (clearPoint t t.pc) 1).1.active t.pc = none := by
  have key : ∀ t : Top σ, t.active t.pc = none →
      (stepPast M t).patched t.pc = true ∧ (stepPast M t).active t.pc = none := by
    intro t ha
    have hw : (writeOriginal t t.pc).active = t.active := by unfold writeOriginal; split <;> rfl
    have hx : (execute M (writeOriginal t t.pc) t.pc).1.active = t.active := by
      unfold execute
      have : ebreakHandler (writeOriginal t t.pc) t.pc = none := by
        unfold ebreakHandler; rw [hw, ha]
      rw [this]
      have he : ∀ (u : Top σ) r, (effect u r).1.active = u.active := by
        intro u r; unfold effect; split <;> rfl
      simp only
      split <;> rw [he] <;> exact hw
    unfold stepPast
    simp only [checkInterrupt]
    split
    · exact ⟨by simp [writeBreakpoint, setF], by simp only [writeBreakpoint]; rw [hx]; exact ha⟩
    · exact ⟨by simp [writeBreakpoint, setF], by simp only [writeBreakpoint]; rw [hx]; exact ha⟩
  have hpc : (clearPoint t t.pc).pc = t.pc := by unfold clearPoint writeOriginal; split <;> rfl
  have hso : (clearPoint t t.pc).stepOver = true := by
    unfold clearPoint writeOriginal; split <;> exact hs
  have hac : (clearPoint t t.pc).active t.pc = none := by
    unfold clearPoint; simp
  generalize clearPoint t t.pc = c at hpc hso hac
  rw [← hpc] at hac ⊢
  have := key { c with halted := false, paused := false, reason := .none, stepOver := false } hac
  unfold step
  simp only [hso, if_true, Nat.sub_self, stepFrom, stepLoop, finish]
  split <;> exact this

/-- Writing the pc while stopped at a breakpoint and stepping on plants a breakpoint instruction at
the new pc, where no breakpoint was ever set. For every machine. -/
theorem C54_pc_write_violated (M : Machine σ) (t : Top σ) (v : BitVec 64) (hs : t.stepOver = true) :
    (step M (writePc t v) 1).1.patched v = true := by
  have key : ∀ t : Top σ, (stepPast M t).patched t.pc = true := by
    intro t
    unfold stepPast
    simp only [checkInterrupt]
    split <;> simp [writeBreakpoint, setF]
  have hpc : (writePc t v).pc = v := rfl
  have hso : (writePc t v).stepOver = true := by unfold writePc; simp only; split <;> exact hs
  generalize writePc t v = c at hpc hso
  subst hpc
  have := key { c with halted := false, paused := false, reason := .none, stepOver := false }
  unfold step
  simp only [hso, if_true, Nat.sub_self, stepFrom, stepLoop, finish]
  split <;> exact this

/-- An interrupt that becomes available in the cycle of an action point's breakpoint instruction: the
instruction under the action point is skipped (the interrupt returns to the one after it), and the first
instruction of the interrupt handler gets a breakpoint instruction. -/
theorem C54_interrupt_violated (M : Machine σ) (t : Top σ) (s' : σ) (h : BitVec 64)
    (take : BitVec 64 → σ × BitVec 64) (hs : t.stepOver = false) (hp : t.patched t.pc = true)
    (ha : t.active t.pc = some .action) (hi : M.intr (M.tick t.arch) = some take)
    (ht : take (t.pc + BitVec.ofNat 64 (M.size t.arch t.pc)) = (s', h)) (hh : t.patched h = false) :
    (step M t 1).1.log = h :: t.log ∧ (step M t 1).1.patched h = true
      ∧ (step M t 1).1.active = t.active := by
  have e : turnExec M { t with halted := false, paused := false, reason := .none } t.pc
      = ({ t with
            halted := false, pc := h, arch := s', paused := true
            reason := .actionPoint, stepOver := true, instret := t.instret + 1 }, h) := by
    simp [turnExec, execute, ebreakHandler, requestHalt, checkInterrupt, hp, ha, hi, ht]
  have key : ∀ u : Top σ, u.patched u.pc = false → (stepPast M u).log = u.pc :: u.log
      ∧ (stepPast M u).patched u.pc = true ∧ (stepPast M u).active = u.active := by
    intro u hu
    have hw : (writeOriginal u u.pc).log = u.log ∧ (writeOriginal u u.pc).active = u.active
        ∧ (writeOriginal u u.pc).patched u.pc = false := by
      unfold writeOriginal
      split
      · exact ⟨rfl, rfl, by simp [setF]⟩
      · exact ⟨rfl, rfl, hu⟩
    unfold stepPast
    simp only [checkInterrupt, execute, hw.2.2, Bool.false_eq_true, if_false, effect]
    cases (M.exec (writeOriginal u u.pc).arch u.pc).2 <;> simp only <;> split <;>
      simp [writeBreakpoint, setF, hw.1, hw.2.1]
  obtain ⟨k1, k2, k3⟩ := key { t with
    halted := false, pc := h, arch := s', paused := true
    reason := .actionPoint, stepOver := true, instret := t.instret + 1 } hh
  rw [step_eq M t 1 hs]
  simp only [stepFrom, stepLoop, turn, e, Bool.false_eq_true, Bool.true_eq_false, if_false, if_true,
    finish]
  split <;> exact ⟨k1, k2, k3⟩

/-! ### A machine to meet the hypotheses: a loop of two instructions, the second branching back -/

def loopMachine : Machine Nat where
  size _ _ := 4
  exec s pc := (s + 1, if pc = 0x104#64 then some 0x100#64 else none)
  breakTrap s _ := (s, some 0x800#64)
  tick s := s
  intr _ := none

def start : Top Nat :=
  { arch := 0, pc := 0x100#64, halted := false, paused := false, reason := .none, stepOver := false,
    patched := fun _ => false, known := fun _ => false, active := fun _ => none, log := [], instret := 0 }

def atBranch : Top Nat := { setPoint start 0x104#64 .action with pc := 0x104#64 }

example : Clear loopMachine start (start.arch, start.pc) 3 := fun _ _ => rfl
example : path loopMachine (0, 0x100#64) 3 = [0x100#64, 0x104#64, 0x100#64] := by decide
-- a breakpoint at the branch: stop there, resume
example : let t := setPoint start 0x104#64 .breakpoint
    Clear loopMachine t (t.arch, t.pc) 1 ∧ t.patched (plainN loopMachine (t.arch, t.pc) 1).2 = true
      ∧ t.active (plainN loopMachine (t.arch, t.pc) 1).2 = some .breakpoint := by
  refine ⟨?_, by decide, by decide⟩
  intro k hk
  have : k = 0 := by omega
  subst this
  decide
example : let t := (step loopMachine (setPoint start 0x104#64 .breakpoint) 5).1
    t.stepOver = true ∧ t.pc = 0x104#64 ∧ t.patched t.pc = true ∧ t.known t.pc = true := by decide
-- an action point at the branch: the pc ends behind it although the branch was executed
example : atBranch.stepOver = false ∧ atBranch.patched atBranch.pc = true
    ∧ atBranch.known atBranch.pc = true ∧ atBranch.active atBranch.pc = some .action := by decide
example : (step loopMachine atBranch 1).1.pc = 0x108#64
    ∧ (plain loopMachine 0 0x104#64).2 = 0x100#64 := by decide

end Verif.RunLoop
