import Verif.Dispatch.Spec
import Verif.Mem.Props
/-
C57: environment calls and breakpoints go to the first handler that accepts, and trap otherwise.
-/
namespace Verif.Dispatch
open Verif.Core Spec

variable {w : Nat} {ω : Type}

/-- C57: if a handler accepts, the breakpoint ends in the state the first accepting one left. -/
theorem C57_ebreak_accepted (hs : List (Handler w ω)) (addr : BitVec 64) (s s' : World w ω)
    (handled : Bool) (i : Nat) (h : FirstAccepts addr hs s s' i) : ebreak hs addr s handled = s' := by
  obtain ⟨g, t, hg, hd, ha⟩ := h
  induction i generalizing hs s with
  | zero =>
    cases hs with
    | nil => simp at hg
    | cons x xs =>
      simp only [List.getElem?_cons_zero, Option.some.injEq] at hg
      subst hg
      cases hd
      simp [ebreak, ha]
  | succ i ih =>
    cases hs with
    | nil => simp at hg
    | cons x xs =>
      rw [List.take_succ_cons] at hd
      cases hd with
      | cons _ _ _ _ hx hd =>
        rw [ebreak, hx]
        exact ih xs (x addr s).1 hg hd

/-- C57: if all handlers decline, the breakpoint traps with cause 3 and the address of the
instruction, in the state the handlers left. -/
theorem C57_ebreak_declined (hs : List (Handler w ω)) (addr : BitVec 64) (s t : World w ω)
    (handled : Bool) (h : AllDecline addr hs s t) : Traps t (ebreak hs addr s handled) 3 addr handled := by
  induction h with
  | nil s => exact ⟨⟨rfl, rfl, rfl, rfl, rfl⟩, rfl⟩
  | cons h hs s s' hx _ ih =>
    rw [ebreak, hx]
    exact ih

/-- C57: one of the two always happens, so the trap is taken only if all handlers declined. -/
theorem C57_ebreak_total (hs : List (Handler w ω)) (addr : BitVec 64) (s : World w ω) :
    (∃ s' i, FirstAccepts addr hs s s' i) ∨ ∃ t, AllDecline addr hs s t := by
  induction hs generalizing s with
  | nil => exact Or.inr ⟨s, .nil s⟩
  | cons h hs ih =>
    cases hx : (h addr s).2 with
    | true => exact Or.inl ⟨(h addr s).1, 0, h, s, rfl, .nil s, by rw [← hx]⟩
    | false =>
      rcases ih (h addr s).1 with ⟨s', i, g, t, hg, hd, ha⟩ | ⟨t, ht⟩
      · exact Or.inl ⟨s', i + 1, g, t, hg, by rw [List.take_succ_cons]; exact .cons _ _ _ _ hx hd, ha⟩
      · exact Or.inr ⟨t, .cons _ _ _ _ hx ht⟩

theorem decline_functional {hs : List (Handler w ω)} {addr : BitVec 64} {s t t' : World w ω}
    (h : AllDecline addr hs s t) (h' : AllDecline addr hs s t') : t = t' := by
  induction h with
  | nil s => cases h'; rfl
  | cons _ _ _ _ _ _ ih => cases h' with | cons _ _ _ _ _ h2 => exact ih h2

/-- C57: a handler registered later is asked only after all earlier ones declined, and cannot change
what an earlier acceptance does. -/
theorem C57_registration_order (hs : List (Handler w ω)) (h : Handler w ω) (addr : BitVec 64)
    (s : World w ω) (handled : Bool) :
    (∀ s' i, FirstAccepts addr hs s s' i → ebreak (addHandler hs h) addr s handled = s') ∧
    (∀ t, AllDecline addr hs s t → (h addr t).2 = true →
      ebreak (addHandler hs h) addr s handled = (h addr t).1) := by
  constructor
  · rintro s' i ⟨g, t, hg, hd, ha⟩
    have hi := (List.getElem?_eq_some_iff.1 hg).1
    refine C57_ebreak_accepted _ _ _ _ _ i ⟨g, t, ?_, ?_, ha⟩
    · rw [addHandler, List.getElem?_append_left hi, hg]
    · rw [addHandler, List.take_append_of_le_length (by omega)]; exact hd
  · intro t ht hx
    refine C57_ebreak_accepted _ _ _ _ _ hs.length ⟨h, t, ?_, ?_, ?_⟩
    · simp [addHandler]
    · rw [addHandler, List.take_left]; exact ht
    · rw [← hx]

theorem callCode_iff (mode : BitVec 2) (code : BitVec 64) :
    callCode mode = some code ↔ IsCallCause mode code := by
  unfold callCode IsCallCause U S M
  by_cases h0 : mode = 0#2
  · subst h0; simp [eq_comm]
  · by_cases h1 : mode = 1#2
    · subst h1; simp [eq_comm]
    · by_cases h3 : mode = 3#2
      · subst h3; simp [eq_comm]
      · simp [h0, h1, h3]

/-- The state after asking the environment-call handler, if there is one and it declines (or there is
none). -/
def Declined (h : Option (Handler w ω)) (addr : BitVec 64) (s t : World w ω) : Prop :=
  AllDecline addr h.toList s t

theorem ecall_declined (h : Option (Handler w ω)) (addr : BitVec 64) (s t : World w ω)
    (handled : Bool) (hd : Declined h addr s t) : ecall h addr s handled = ecallTrap addr t handled := by
  cases h with
  | none => cases hd; rfl
  | some h =>
    unfold Declined at hd
    rw [Option.toList_some] at hd
    cases hd with
    | cons _ _ _ _ hx hd =>
      cases hd
      simp [ecall, hx]

/-- C57: an environment call is the handler's affair if it accepts. -/
theorem C57_ecall_accepted (h : Handler w ω) (addr : BitVec 64) (s s' : World w ω) (handled : Bool)
    (ha : h addr s = (s', true)) : ecall (some h) addr s handled = s' := by
  simp [ecall, ha]

/-- C57: without a handler, or if it declines, an environment call from user, supervisor or machine
mode traps with the cause of that mode. -/
theorem C57_ecall_declined (h : Option (Handler w ω)) (addr : BitVec 64) (s t : World w ω)
    (handled : Bool) (code : BitVec 64) (hd : Declined h addr s t)
    (hc : IsCallCause t.core.hart.mode code) : Traps t (ecall h addr s handled) code addr handled := by
  rw [ecall_declined h addr s t handled hd, ecallTrap, (callCode_iff _ _).2 hc]
  exact ⟨⟨rfl, rfl, rfl, rfl, rfl⟩, rfl⟩

/-- Every mode except the reserved encoding has a cause. -/
theorem C57_ecall_modes (mode : BitVec 2) (h : mode ≠ 2) : ∃ code, IsCallCause mode code := by
  have : mode = 0 ∨ mode = 1 ∨ mode = 3 := by
    have := mode.isLt
    have h2 : mode.toNat ≠ 2 := fun e => h (BitVec.eq_of_toNat_eq e)
    have : mode.toNat = 0 ∨ mode.toNat = 1 ∨ mode.toNat = 3 := by omega
    rcases this with h | h | h
    · exact Or.inl (BitVec.eq_of_toNat_eq h)
    · exact Or.inr (Or.inl (BitVec.eq_of_toNat_eq h))
    · exact Or.inr (Or.inr (BitVec.eq_of_toNat_eq h))
  rcases this with h | h | h
  · exact ⟨8, Or.inl ⟨h, rfl⟩⟩
  · exact ⟨9, Or.inr (Or.inl ⟨h, rfl⟩)⟩
  · exact ⟨11, Or.inr (Or.inr ⟨h, rfl⟩)⟩

/-- In the reserved mode, which an mret with MPP = 2 reaches, a declined environment call does nothing
at all. -/
theorem C57_ecall_reserved_mode (h : Option (Handler w ω)) (addr : BitVec 64) (s t : World w ω)
    (handled : Bool) (hd : Declined h addr s t) (hm : t.core.hart.mode = 2) :
    ecall h addr s handled = t := by
  rw [ecall_declined h addr s t handled hd, ecallTrap, hm]
  rfl

/-- wfi runs its handler once and is otherwise a no-op. -/
theorem C57_wfi (h : Handler w ω) (addr : BitVec 64) (s : World w ω) :
    wfi (some h) addr s = (h addr s).1 ∧ wfi (none : Option (Handler w ω)) addr s = s :=
  ⟨by simp [wfi], rfl⟩

/-- cease without an accepting handler branches to itself. -/
theorem C57_cease (h : Option (Handler w ω)) (addr : BitVec 64) (s t : World w ω)
    (hd : Declined h addr s t) :
    Control.Spec.Goes t.core (cease h addr s).core (addr.setWidth w)
      ∧ (cease h addr s).core.regs = t.core.regs ∧ (cease h addr s).outside = t.outside := by
  cases h with
  | none => cases hd; exact ⟨⟨rfl, rfl, rfl, rfl⟩, rfl, rfl⟩
  | some h =>
    unfold Declined at hd
    rw [Option.toList_some] at hd
    cases hd with
    | cons _ _ _ _ hx hd =>
      cases hd
      simp only [cease, hx]
      exact ⟨⟨rfl, rfl, rfl, rfl⟩, rfl, rfl⟩

/-- Three handlers that count their calls: the first declines, the second accepts. -/
def h1 : Handler 64 (Nat × Nat) := fun _ s => ({ s with outside := (s.outside.1 + 1, s.outside.2) }, false)
def h2 : Handler 64 (Nat × Nat) := fun _ s => ({ s with outside := (s.outside.1, s.outside.2 + 1) }, true)
def world : World 64 (Nat × Nat) := ⟨Mem.sample, (0, 0)⟩

example : FirstAccepts 0x100 [h1, h2, h2] world { world with outside := (1, 1) } 1 :=
  ⟨h2, _, rfl, .cons _ _ _ _ rfl (.nil _), rfl⟩
example : AllDecline 0x100 [h1, h1] world { world with outside := (2, 0) } :=
  .cons _ _ _ _ rfl (.cons _ _ _ _ rfl (.nil _))
example : Declined (some h1) 0x100 world { world with outside := (1, 0) } :=
  .cons _ _ _ _ rfl (.nil _)
example : IsCallCause world.core.hart.mode 11 := Or.inr (Or.inr ⟨rfl, rfl⟩)

end Verif.Dispatch
