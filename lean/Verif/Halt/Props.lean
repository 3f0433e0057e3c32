import Verif.Halt.Model
import Verif.Halt.Spec
/-
C103: a step is a step.
C104: a running core that is told to stop stops.
C107: the branch trace receives the transfers of control.
-/
namespace Verif.Halt
open RunLoop (Machine)
open RunLoop.Spec (plain plainN)
open Spec

variable {σ : Type}

/-- The reason reported for a request. -/
def reasonOf : Option Nat → Reason
  | none => .userRequest
  | some k => .other k

/-- One turn: the program's next state and pc, and what was requested. -/
theorem turn_eq (P : Prog σ) (t : Top σ) (pc : BitVec 64) (b : Bool)
    (h1 : t.halted = false) (h2 : t.paused = false) :
    (turn P t pc b).2 = (plain P.machine t.arch pc).2
    ∧ (turn P t pc b).1.arch = (plain P.machine t.arch pc).1
    ∧ (turn P t pc b).1.stepOver = t.stepOver
    ∧ (match requested P.machine P.request (fun _ => b) (t.arch, pc) 0 with
        | none => (turn P t pc b).1.halted = false ∧ (turn P t pc b).1.paused = false
            ∧ (turn P t pc b).1.reason = t.reason
        | some r => (turn P t pc b).1.halted = true ∧ (turn P t pc b).1.paused = true
            ∧ (turn P t pc b).1.reason = reasonOf r) := by
  unfold turn execute plain checkInterrupt requested plainN user requestHalt
  cases hr : P.request t.arch pc <;> cases hb : (P.machine.exec t.arch pc).2 <;>
    cases hi : P.machine.intr (P.machine.tick (P.machine.exec t.arch pc).1) <;>
    cases b <;> simp [hr, hb, hi, h1, h2, reasonOf]

/-- What is requested later in the execution is what is requested in the rest of it. -/
theorem requested_succ (P : Prog σ) (a : Nat → Bool) (x : σ × BitVec 64) (i : Nat) :
    requested P.machine P.request a x (i + 1)
      = requested P.machine P.request (fun j => a (j + 1)) (plain P.machine x.1 x.2) i := rfl

theorem requested_zero (P : Prog σ) (a : Nat → Bool) (x : σ × BitVec 64) :
    requested P.machine P.request a x 0 = requested P.machine P.request (fun _ => a 0) x 0 := rfl

/-- The loop, when nothing is requested. -/
theorem loop_quiet (P : Prog σ) : ∀ (n : Nat) (t : Top σ) (pc : BitVec 64) (a : Nat → Bool),
    t.halted = false → t.paused = false →
    Quiet P.machine P.request a (t.arch, pc) n →
    (loop P t pc a n).1.arch = (plainN P.machine (t.arch, pc) n).1
    ∧ (loop P t pc a n).2.1 = (plainN P.machine (t.arch, pc) n).2
    ∧ (loop P t pc a n).2.2 = n ∧ (loop P t pc a n).1.halted = false
    ∧ (loop P t pc a n).1.paused = false ∧ (loop P t pc a n).1.reason = t.reason
    ∧ (loop P t pc a n).1.stepOver = t.stepOver := by
  intro n
  induction n with
  | zero => intro t pc a h1 h2 _; exact ⟨rfl, rfl, rfl, h1, h2, rfl, rfl⟩
  | succ n ih =>
    intro t pc a h1 h2 hq
    obtain ⟨e1, e2, e3, e4⟩ := turn_eq P t pc (a 0) h1 h2
    have h0 := hq 0 (by omega)
    rw [requested_zero] at h0
    rw [h0] at e4
    simp only at e4
    have hq' : Quiet P.machine P.request (fun i => a (i + 1))
        ((turn P t pc (a 0)).1.arch, (turn P t pc (a 0)).2) n := by
      intro i hi
      have := hq (i + 1) (by omega)
      rw [requested_succ] at this
      rw [e1, e2]
      exact this
    obtain ⟨g1, g2, g3, g4, g5, g6, g7⟩ := ih _ _ _ e4.1 e4.2.1 hq'
    have hp : plainN P.machine (t.arch, pc) (n + 1)
        = plainN P.machine ((turn P t pc (a 0)).1.arch, (turn P t pc (a 0)).2) n := by
      rw [e1, e2]; rfl
    simp only [loop, h2, e4.2.1, Bool.false_eq_true, if_false]
    rw [hp]
    exact ⟨g1, g2, by rw [g3], g4, g5, by rw [g6, e4.2.2], by rw [g7, e3]⟩

/-- The loop, when the first request comes during instruction `k`. -/
theorem loop_request (P : Prog σ) : ∀ (k n : Nat) (t : Top σ) (pc : BitVec 64) (a : Nat → Bool)
    (r : Option Nat), k < n → t.halted = false → t.paused = false →
    Quiet P.machine P.request a (t.arch, pc) k →
    requested P.machine P.request a (t.arch, pc) k = some r →
    (loop P t pc a n).1.arch = (plainN P.machine (t.arch, pc) (k + 1)).1
    ∧ (loop P t pc a n).2.1 = (plainN P.machine (t.arch, pc) (k + 1)).2
    ∧ (loop P t pc a n).2.2 = k + 1 ∧ (loop P t pc a n).1.halted = true
    ∧ (loop P t pc a n).1.paused = true ∧ (loop P t pc a n).1.reason = reasonOf r := by
  intro k
  induction k with
  | zero =>
    intro n t pc a r hk h1 h2 _ hr
    obtain ⟨m, rfl⟩ : ∃ m, n = m + 1 := ⟨n - 1, by omega⟩
    obtain ⟨e1, e2, e3, e4⟩ := turn_eq P t pc (a 0) h1 h2
    rw [requested_zero] at hr
    rw [hr] at e4
    simp only at e4
    simp only [loop, h2, e4.2.1, Bool.false_eq_true, if_false, if_true]
    exact ⟨e2, e1, trivial, e4.1, trivial, e4.2.2⟩
  | succ k ih =>
    intro n t pc a r hk h1 h2 hq hr
    obtain ⟨m, rfl⟩ : ∃ m, n = m + 1 := ⟨n - 1, by omega⟩
    obtain ⟨e1, e2, e3, e4⟩ := turn_eq P t pc (a 0) h1 h2
    have h0 := hq 0 (by omega)
    rw [requested_zero] at h0
    rw [h0] at e4
    simp only at e4
    have hq' : Quiet P.machine P.request (fun i => a (i + 1))
        ((turn P t pc (a 0)).1.arch, (turn P t pc (a 0)).2) k := by
      intro i hi
      have := hq (i + 1) (by omega)
      rw [requested_succ] at this
      rw [e1, e2]
      exact this
    have hr' : requested P.machine P.request (fun i => a (i + 1))
        ((turn P t pc (a 0)).1.arch, (turn P t pc (a 0)).2) k = some r := by
      rw [requested_succ] at hr
      rw [e1, e2]
      exact hr
    obtain ⟨g1, g2, g3, g4, g5, g6⟩ := ih m _ _ _ r (by omega) e4.1 e4.2.1 hq' hr'
    have hp : plainN P.machine (t.arch, pc) (k + 1 + 1)
        = plainN P.machine ((turn P t pc (a 0)).1.arch, (turn P t pc (a 0)).2) (k + 1) := by
      rw [e1, e2]; rfl
    simp only [loop, h2, e4.2.1, Bool.false_eq_true, if_false]
    rw [hp]
    exact ⟨g1, g2, by rw [g3], g4, g5, g6⟩

/-- Stepping past a breakpoint executes the instruction there. -/
theorem stepPast_eq (P : Prog σ) (t : Top σ) (h1 : t.halted = false) :
    (stepPast P t).arch = (plain P.machine t.arch t.pc).1
    ∧ (stepPast P t).pc = (plain P.machine t.arch t.pc).2
    ∧ (stepPast P t).stepOver = t.stepOver ∧ (stepPast P t).paused = t.paused
    ∧ (match P.request t.arch t.pc with
        | none => (stepPast P t).halted = false ∧ (stepPast P t).reason = t.reason
        | some k => (stepPast P t).halted = true ∧ (stepPast P t).reason = .other k) := by
  unfold stepPast execute plain checkInterrupt requestHalt
  cases hr : P.request t.arch t.pc <;> cases hb : (P.machine.exec t.arch t.pc).2 <;>
    cases hi : P.machine.intr (P.machine.tick (P.machine.exec t.arch t.pc).1) <;>
    simp [hr, hb, hi, h1]

/-- A step of `n` instructions executes exactly `n` when none of them requests a halt, returns
`n`, and reports no reason; when instruction `k` is the first to request one, it executes
`k + 1`, returns that and reports the reason. Also after a breakpoint. -/
theorem C103_step (P : Prog σ) (t : Top σ) (n : Nat) (hn : 0 < n) :
    (Quiet P.machine P.request (fun _ => false) (t.arch, t.pc) n →
      (step P t n).1.arch = (plainN P.machine (t.arch, t.pc) n).1
      ∧ (step P t n).1.pc = (plainN P.machine (t.arch, t.pc) n).2
      ∧ (step P t n).2 = n ∧ (step P t n).1.reason = .none)
    ∧ (∀ k r, k < n → Quiet P.machine P.request (fun _ => false) (t.arch, t.pc) k →
      requested P.machine P.request (fun _ => false) (t.arch, t.pc) k = some r →
      (step P t n).1.arch = (plainN P.machine (t.arch, t.pc) (k + 1)).1
      ∧ (step P t n).1.pc = (plainN P.machine (t.arch, t.pc) (k + 1)).2
      ∧ (step P t n).2 = k + 1 ∧ (step P t n).1.reason = reasonOf r) := by
  obtain ⟨arch, pc, halted, paused, reason, stepOver, trace⟩ := t
  cases stepOver with
  | false =>
    have hs : step P ⟨arch, pc, halted, paused, reason, false, trace⟩ n
        = (let r := loop P ⟨arch, pc, false, false, .none, false, trace⟩ pc (fun _ => false) n
           let t := { r.1 with pc := r.2.1 }
           (if t.halted then t else { t with reason := .none }, 0 + r.2.2)) := by
      simp only [step, Bool.false_eq_true, if_false, Nat.sub_zero]
    constructor
    · intro hq
      obtain ⟨g1, g2, g3, g4, g5, g6, g7⟩ :=
        loop_quiet P n ⟨arch, pc, false, false, .none, false, trace⟩ pc _ rfl rfl hq
      rw [hs]
      simp only [g4, Bool.false_eq_true, if_false]
      exact ⟨g1, g2, by omega, trivial⟩
    · intro k r hk hq hr
      obtain ⟨g1, g2, g3, g4, g5, g6⟩ :=
        loop_request P k n ⟨arch, pc, false, false, .none, false, trace⟩ pc _ r hk rfl rfl hq hr
      rw [hs]
      simp only [g4, if_true]
      exact ⟨g1, g2, by omega, g6⟩
  | true =>
    obtain ⟨e1, e2, e3, e4, e5⟩ := stepPast_eq P ⟨arch, pc, false, false, .none, false, trace⟩ rfl
    simp only at e1 e2 e3 e4 e5
    have hs : step P ⟨arch, pc, halted, paused, reason, true, trace⟩ n
        = (let t1 := stepPast P ⟨arch, pc, false, false, .none, false, trace⟩
           let t1 := { t1 with paused := t1.paused || t1.halted }
           let r := loop P t1 t1.pc (fun _ => false) (n - 1)
           let t := { r.1 with pc := r.2.1 }
           (if t.halted then t else { t with reason := .none }, 1 + r.2.2)) := by
      simp only [step, if_true]
    generalize hT : stepPast P ⟨arch, pc, false, false, .none, false, trace⟩ = T at *
    have hp1 : ∀ j, plainN P.machine (arch, pc) (j + 1) = plainN P.machine (T.arch, T.pc) j := by
      intro j
      rw [e1, e2]
      rfl
    cases hreq : P.request arch pc with
    | none =>
      rw [hreq] at e5
      simp only at e5
      have hshift : ∀ i, requested P.machine P.request (fun _ => false) (arch, pc) (i + 1)
          = requested P.machine P.request (fun _ => false) (T.arch, T.pc) i := by
        intro i
        rw [requested_succ, e1, e2]
      constructor
      · intro hq
        obtain ⟨g1, g2, g3, g4, g5, g6, g7⟩ := loop_quiet P (n - 1)
          { T with paused := T.paused || T.halted } T.pc (fun _ => false)
          e5.1 (by rw [e4, e5.1]; rfl)
          (fun i hi => by
            have := hq (i + 1) (by omega)
            rw [hshift] at this
            exact this)
        rw [hs]
        simp only [g4, Bool.false_eq_true, if_false]
        rw [show n = (n - 1) + 1 by omega, hp1]
        exact ⟨g1, g2, by simp only [Nat.add_sub_cancel]; omega, trivial⟩
      · intro k r hk hq hr
        have hk0 : k ≠ 0 := by
          rintro rfl
          simp [requested, plainN, hreq] at hr
        obtain ⟨j, rfl⟩ : ∃ j, k = j + 1 := ⟨k - 1, by omega⟩
        obtain ⟨g1, g2, g3, g4, g5, g6⟩ := loop_request P j (n - 1)
          { T with paused := T.paused || T.halted } T.pc (fun _ => false) r (by omega)
          e5.1 (by rw [e4, e5.1]; rfl)
          (fun i hi => by
            have := hq (i + 1) (by omega)
            rw [hshift] at this
            exact this)
          (by rw [hshift] at hr; exact hr)
        rw [hs]
        simp only [g4, if_true]
        rw [hp1]
        exact ⟨g1, g2, by omega, g6⟩
    | some c =>
      rw [hreq] at e5
      simp only at e5
      constructor
      · intro hq
        have := hq 0 hn
        simp [requested, plainN, hreq] at this
      · intro k r hk hq hr
        have hk0 : k = 0 := by
          by_cases h : k = 0
          · exact h
          · have := hq 0 (by omega)
            simp [requested, plainN, hreq] at this
        subst hk0
        simp only [requested, plainN, hreq, Bool.false_eq_true, if_false, Option.map_some,
          Option.some.injEq] at hr
        subst hr
        have hl : loop P { T with paused := T.paused || T.halted } T.pc (fun _ => false) (n - 1)
            = ({ T with paused := T.paused || T.halted }, T.pc, 0) := by
          cases n - 1 with
          | zero => rfl
          | succ m => simp [loop, e5.1]
        rw [hs]
        dsimp only
        rw [hl]
        dsimp only
        rw [if_pos e5.1, hp1]
        exact ⟨rfl, rfl, rfl, e5.2⟩

/-- A running core executes the program for as long as nothing is requested, and stops after
the instruction during which the first request comes, with its reason; when it does not resume
at a breakpoint. For every moment at which the user's request may arrive. -/
theorem C104_run_partial (P : Prog σ) (t : Top σ) (a : Nat → Bool) (n : Nat)
    (hs : t.stepOver = false) :
    (Quiet P.machine P.request a (t.arch, t.pc) n →
      (run P t a n).1.arch = (plainN P.machine (t.arch, t.pc) n).1
      ∧ (run P t a n).1.pc = (plainN P.machine (t.arch, t.pc) n).2
      ∧ (run P t a n).2 = (n, false))
    ∧ (∀ k r, k < n → Quiet P.machine P.request a (t.arch, t.pc) k →
      requested P.machine P.request a (t.arch, t.pc) k = some r →
      (run P t a n).1.arch = (plainN P.machine (t.arch, t.pc) (k + 1)).1
      ∧ (run P t a n).1.pc = (plainN P.machine (t.arch, t.pc) (k + 1)).2
      ∧ (run P t a n).2 = (k + 1, true) ∧ (run P t a n).1.reason = reasonOf r) := by
  obtain ⟨arch, pc, halted, paused, reason, stepOver, trace⟩ := t
  simp only at hs
  subst hs
  have hr : run P ⟨arch, pc, halted, paused, reason, false, trace⟩ a n
      = (let r := loop P ⟨arch, pc, false, false, .none, false, trace⟩ pc a n
         ({ r.1 with pc := r.2.1 }, r.2.2, r.1.paused)) := by
    simp only [run, Bool.false_eq_true, if_false]
  rw [hr]
  constructor
  · intro hq
    obtain ⟨g1, g2, g3, g4, g5, g6, g7⟩ :=
      loop_quiet P n ⟨arch, pc, false, false, .none, false, trace⟩ pc a rfl rfl hq
    exact ⟨g1, g2, by simp only [g3, g5]⟩
  · intro k r hk hq hr
    obtain ⟨g1, g2, g3, g4, g5, g6⟩ :=
      loop_request P k n ⟨arch, pc, false, false, .none, false, trace⟩ pc a r hk rfl rfl hq hr
    exact ⟨g1, g2, by simp only [g3, g5], g6⟩

/-- Resuming at a breakpoint, a running core executes the instruction there and goes on: when
that instruction requests nothing, it runs as if there had been no breakpoint. -/
theorem C104_resume_partial (P : Prog σ) (t : Top σ) (a : Nat → Bool) (n : Nat)
    (hs : t.stepOver = true) (hq : P.request t.arch t.pc = none)
    (ha : Quiet P.machine P.request a (plain P.machine t.arch t.pc) n) :
    (run P t a n).1.arch = (plainN P.machine (t.arch, t.pc) (n + 1)).1
    ∧ (run P t a n).1.pc = (plainN P.machine (t.arch, t.pc) (n + 1)).2
    ∧ (run P t a n).2 = (n, false) := by
  have key : ∀ T : Top σ, T.arch = (plain P.machine t.arch t.pc).1 →
      T.pc = (plain P.machine t.arch t.pc).2 → T.halted = false → T.paused = false →
      (loop P T T.pc a n).1.arch = (plainN P.machine (t.arch, t.pc) (n + 1)).1
      ∧ (loop P T T.pc a n).2.1 = (plainN P.machine (t.arch, t.pc) (n + 1)).2
      ∧ (loop P T T.pc a n).2.2 = n ∧ (loop P T T.pc a n).1.paused = false := by
    intro T h1 h2 h3 h4
    obtain ⟨g1, g2, g3, g4, g5, g6, g7⟩ := loop_quiet P n T T.pc a h3 h4 (by
      rw [h1, h2]; exact ha)
    have hp : plainN P.machine (t.arch, t.pc) (n + 1) = plainN P.machine (T.arch, T.pc) n := by
      rw [h1, h2]; rfl
    rw [hp]
    exact ⟨g1, g2, g3, g5⟩
  have e : (stepPast P { t with stepOver := false }).arch = (plain P.machine t.arch t.pc).1
      ∧ (stepPast P { t with stepOver := false }).pc = (plain P.machine t.arch t.pc).2 := by
    unfold stepPast execute plain checkInterrupt requestHalt
    cases hb : (P.machine.exec t.arch t.pc).2 <;>
      cases hi : P.machine.intr (P.machine.tick (P.machine.exec t.arch t.pc).1) <;>
      simp [hq, hb, hi]
  obtain ⟨g1, g2, g3, g4⟩ := key
    { stepPast P { t with stepOver := false } with halted := false, paused := false, reason := .none }
    e.1 e.2 rfl rfl
  simp only [run, hs, if_true]
  exact ⟨g1, g2, by rw [g3, g4]⟩

/-- What the instruction at the breakpoint requests is lost: however the request arises, the
core runs on for as long as the rest of the program requests nothing. -/
theorem C104_lost_violated (P : Prog σ) (t : Top σ) (a : Nat → Bool) (n : Nat) (k : Nat)
    (hs : t.stepOver = true) (_hq : P.request t.arch t.pc = some k)
    (ha : Quiet P.machine P.request a (plain P.machine t.arch t.pc) n) :
    (run P t a n).2 = (n, false) ∧ (run P t a n).1.reason = .none
    ∧ (step P t 1).1.reason = .other k := by
  have e : (stepPast P { t with stepOver := false }).arch = (plain P.machine t.arch t.pc).1
      ∧ (stepPast P { t with stepOver := false }).pc = (plain P.machine t.arch t.pc).2 := by
    unfold stepPast execute plain checkInterrupt requestHalt
    cases hb : (P.machine.exec t.arch t.pc).2 <;>
      cases hi : P.machine.intr (P.machine.tick (P.machine.exec t.arch t.pc).1) <;>
      simp [_hq, hb, hi]
  obtain ⟨g1, g2, g3, g4, g5, g6, g7⟩ := loop_quiet P n
    { stepPast P { t with stepOver := false } with halted := false, paused := false, reason := .none }
    (stepPast P { t with stepOver := false }).pc a rfl rfl (by
      rw [e.1, e.2]; exact ha)
  refine ⟨?_, ?_, ?_⟩
  · simp only [run, hs, if_true]
    rw [g3, g5]
  · simp only [run, hs, if_true]
    exact g6
  · have := (C103_step P t 1 (by omega)).2 0 (some k) (by omega) (fun i hi => by omega)
      (by simp [requested, plainN, _hq])
    exact this.2.2.2

/-- One turn records the transfer its instruction makes. -/
theorem turn_trace (P : Prog σ) (t : Top σ) (pc : BitVec 64) (b : Bool) :
    (turn P t pc b).1.trace = t.trace ++ transfer P.machine (t.arch, pc) 0 := by
  unfold turn execute checkInterrupt transfer plainN plainN plain user requestHalt
  cases hr : P.request t.arch pc <;> cases hb : (P.machine.exec t.arch pc).2 <;>
    cases hi : P.machine.intr (P.machine.tick (P.machine.exec t.arch pc).1) <;>
    cases b <;> simp [hr, hb, hi]

theorem transfers_succ (M : Machine σ) (x : σ × BitVec 64) : ∀ n,
    transfers M x (n + 1) = transfer M x 0 ++ transfers M (plain M x.1 x.2) n := by
  intro n
  induction n with
  | zero => simp [transfers]
  | succ n ih =>
    rw [transfers, ih, List.append_assoc]
    rfl

/-- The trace of the loop: the transfers of the instructions executed. -/
theorem loop_trace (P : Prog σ) : ∀ (n : Nat) (t : Top σ) (pc : BitVec 64) (a : Nat → Bool),
    t.halted = false → t.paused = false →
    (loop P t pc a n).1.trace
      = t.trace ++ transfers P.machine (t.arch, pc) (loop P t pc a n).2.2 := by
  intro n
  induction n with
  | zero => intro t pc a _ _; simp [loop, transfers]
  | succ n ih =>
    intro t pc a h1 h2
    obtain ⟨e1, e2, e3, e4⟩ := turn_eq P t pc (a 0) h1 h2
    have e5 := turn_trace P t pc (a 0)
    have hp : ((turn P t pc (a 0)).1.arch, (turn P t pc (a 0)).2) = plain P.machine t.arch pc := by
      rw [e1, e2]
    cases hr : requested P.machine P.request (fun _ => a 0) (t.arch, pc) 0 with
    | some r =>
      rw [hr] at e4
      simp only at e4
      simp only [loop, h2, e4.2.1, Bool.false_eq_true, if_false, if_true]
      rw [e5]
      simp [transfers]
    | none =>
      rw [hr] at e4
      simp only at e4
      simp only [loop, h2, e4.2.1, Bool.false_eq_true, if_false]
      rw [ih _ _ _ e4.1 e4.2.1, e5, hp, transfers_succ, List.append_assoc]

/-- Running and stepping record exactly the transfers of control of the instructions executed,
in order, source and target, when execution does not resume at a breakpoint. -/
theorem C107_trace_partial (P : Prog σ) (t : Top σ) (a : Nat → Bool) (n : Nat)
    (hs : t.stepOver = false) :
    (run P t a n).1.trace = t.trace ++ transfers P.machine (t.arch, t.pc) (run P t a n).2.1
    ∧ (0 < n →
        (step P t n).1.trace = t.trace ++ transfers P.machine (t.arch, t.pc) (step P t n).2) := by
  obtain ⟨arch, pc, halted, paused, reason, stepOver, trace⟩ := t
  simp only at hs
  subst hs
  constructor
  · have := loop_trace P n ⟨arch, pc, false, false, .none, false, trace⟩ pc a rfl rfl
    simp only [run, Bool.false_eq_true, if_false]
    exact this
  · intro _
    have := loop_trace P n ⟨arch, pc, false, false, .none, false, trace⟩ pc (fun _ => false) rfl rfl
    simp only [step, Bool.false_eq_true, if_false, Nat.sub_zero, Nat.zero_add]
    split
    · exact this
    · exact this

/-- A transfer made by the instruction at the breakpoint is recorded as one from the breakpoint
to itself, wherever it goes. -/
theorem C107_breakpoint_violated (P : Prog σ) (t : Top σ) (hs : t.stepOver = true)
    (h : (P.machine.exec t.arch t.pc).2.isSome) :
    (step P t 1).1.trace = t.trace ++ [(t.pc, t.pc)]
    ∧ transfers P.machine (t.arch, t.pc) 1 = [(t.pc, (plain P.machine t.arch t.pc).2)] := by
  constructor
  · obtain ⟨v, hv⟩ := Option.isSome_iff_exists.mp h
    obtain ⟨arch, pc, halted, paused, reason, stepOver, trace⟩ := t
    simp only at hs hv
    subst hs
    have hst : ∀ T : Top σ, T.arch = arch → T.pc = pc →
        (stepPast P T).trace = T.trace ++ [(pc, pc)] := by
      intro T h1 h2
      unfold stepPast execute checkInterrupt requestHalt
      cases hr : P.request arch pc <;>
        cases hi : P.machine.intr (P.machine.tick (P.machine.exec arch pc).1) <;>
        simp [hr, hi, hv, h1, h2]
    have := hst ⟨arch, pc, false, false, .none, false, trace⟩ rfl rfl
    simp only [step, if_true, Nat.sub_self, loop]
    split
    · exact this
    · exact this
  · simp only [transfers, transfer, plainN, h, true_or, if_true, List.nil_append]

/-! ## Cases -/

/-- A program of four-byte instructions that do nothing but count; the one at 8 requests a
halt. -/
def demo : Prog Nat where
  machine := { size := fun _ _ => 4, exec := fun s _ => (s + 1, none), breakTrap := fun s _ => (s, none),
               tick := id, intr := fun _ => none }
  request := fun _ pc => if pc = 8 then some 7 else none

def demoTop (over : Bool) (pc : BitVec 64) : Top Nat :=
  { arch := 0, pc := pc, halted := true, paused := true, reason := .none, stepOver := over, trace := [] }

-- A step of five instructions ends after the third, at the request, also after a breakpoint.
example : (step demo (demoTop false 0) 5).2 = 3 ∧ (step demo (demoTop false 0) 5).1.pc = 12
    ∧ (step demo (demoTop false 0) 5).1.reason = .other 7
    ∧ (step demo (demoTop true 0) 5).2 = 3 ∧ (step demo (demoTop true 8) 5).2 = 1 := by decide

example : Quiet demo.machine demo.request (fun _ => false) (0, 0) 2
    ∧ requested demo.machine demo.request (fun _ => false) (0, 0) 2 = some (some 7) := by
  unfold Quiet
  decide

-- The user's request in the second turn.
example : (run demo (demoTop false 0) (fun i => i == 1) 9).2 = (2, true)
    ∧ (run demo (demoTop false 0) (fun i => i == 1) 9).1.reason = .userRequest := by decide

-- Resumed at the breakpoint at 8, the core runs on.
example : (run demo (demoTop true 8) (fun _ => false) 9).2 = (9, false) := by decide

/-- A program that jumps from 4 back to 0. -/
def demoJump : Prog Nat where
  machine := { size := fun _ _ => 4, exec := fun s pc => (s + 1, if pc = 4 then some 0 else none),
               breakTrap := fun s _ => (s, none), tick := id, intr := fun _ => none }
  request := fun _ _ => none

example : (step demoJump (demoTop false 0) 5).1.trace = [(4, 0), (4, 0)]
    ∧ (step demoJump (demoTop true 4) 1).1.trace = [(4, 4)] := by decide

end Verif.Halt
