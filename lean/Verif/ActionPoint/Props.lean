import Verif.ActionPoint.Spec
/-
C53: setting and clearing breakpoints, in any order and number, restores instruction memory, and only
the patched instructions differ meanwhile.
-/
namespace Verif.ActionPoint
open Verif.Core Spec

theorem within_iff (a b : BitVec 64) (n : Nat) (hn : n ≤ 2 ^ 64) :
    Within a n b ↔ ∃ k, k < n ∧ b = a + BitVec.ofNat 64 k := by
  constructor
  · intro h
    refine ⟨(b - a).toNat, h, ?_⟩
    rw [BitVec.ofNat_toNat, BitVec.setWidth_eq]
    grind
  · rintro ⟨k, hk, rfl⟩
    unfold Within
    rw [BitVec.toNat_sub, BitVec.toNat_add, BitVec.toNat_ofNat]
    have := a.isLt
    omega

theorem length_unique {p : Memory} {a : BitVec 64} {m n : Nat} (h : Length p a m)
    (h' : Length p a n) : m = n := by
  unfold Length at *; omega

theorem length_le {p : Memory} {a : BitVec 64} {n : Nat} (h : Length p a n) : n = 2 ∨ n = 4 := by
  unfold Length at *; omega

/-- Two instructions neither of which starts inside the other share no byte. -/
theorem disjoint (a b c : BitVec 64) (m n : Nat) (hm : m ≤ 4) (hn : n ≤ 4) (h1 : ¬Within a m b)
    (h2 : ¬Within b n a) (h : Within a m c) : ¬Within b n c := by
  unfold Within at *
  rw [BitVec.toNat_sub] at *
  have := a.isLt; have := b.isLt; have := c.isLt
  omega

/-- The first byte of the word decides the size. -/
theorem size_spec (m : Memory) (a : BitVec 64) (n : Nat) :
    (instructionSize (readLE m a 4) = n ∧ n ≠ 0) ↔ Length m a n := by
  have e : readLE m a 4 % 32 = (m a).toNat % 32 := by
    simp only [readLE]; omega
  have e' : readLE m a 4 % 4 = (m a).toNat % 4 := by
    simp only [readLE]; omega
  unfold instructionSize Length
  rw [e, e']
  split
  · omega
  · split <;> omega

/-- Writing the breakpoint instruction. -/
theorem patched_set {p m : Memory} {S : BitVec 64 → Prop} {a : BitVec 64} {n : Nat}
    (h : Patched p m S) (hl : Length p a n)
    (ap : ∀ b k, S b → b ≠ a → Length p b k → ¬Within b k a ∧ ¬Within a n b) :
    Patched p (writeLE m a n (breakWord n)) (fun b => b = a ∨ S b) := by
  have hn := length_le hl
  constructor
  · intro b k hb hk i hi
    by_cases e : b = a
    · subst e
      rw [length_unique hk hl] at *
      exact writeLE_byte m b n _ i (by omega) hi
    · have hS : S b := hb.resolve_left e
      rw [writeLE_frame _ _ _ _ (by omega)]
      · exact h.patched b k hS hk i hi
      · have hk' := length_le hk
        have := ap b k hS e hk
        have := disjoint b a (b + BitVec.ofNat 64 i) k n (by omega) (by omega) this.1 this.2
          ((within_iff _ _ _ (by omega)).2 ⟨i, hi, rfl⟩)
        unfold Within at this
        omega
  · intro b hb
    have := hb a n (Or.inl rfl) hl
    unfold Within at this
    rw [writeLE_frame _ _ _ _ (by omega) _ (by omega)]
    exact h.same b (fun c k hc hk => hb c k (Or.inr hc) hk)

theorem ofNat_byte (p : Memory) (a : BitVec 64) (n k : Nat) (hk : k < n) :
    BitVec.ofNat 8 (readLE p a n / 256 ^ k) = p (a + BitVec.ofNat 64 k) := by
  apply BitVec.eq_of_toNat_eq
  rw [BitVec.toNat_ofNat]
  exact readLE_byte p a n k hk

/-- Writing the original instruction back. -/
theorem patched_clear {p m : Memory} {S : BitVec 64 → Prop} {a : BitVec 64} {n : Nat}
    (h : Patched p m S) (hl : Length p a n)
    (ap : ∀ b k, S b → b ≠ a → Length p b k → ¬Within b k a ∧ ¬Within a n b) :
    Patched p (writeLE m a n (readLE p a n)) (fun b => b ≠ a ∧ S b) := by
  have hn := length_le hl
  constructor
  · rintro b k ⟨e, hS⟩ hk i hi
    rw [writeLE_frame _ _ _ _ (by omega)]
    · exact h.patched b k hS hk i hi
    · have hk' := length_le hk
      have := ap b k hS e hk
      have := disjoint b a (b + BitVec.ofNat 64 i) k n (by omega) (by omega) this.1 this.2
        ((within_iff _ _ _ (by omega)).2 ⟨i, hi, rfl⟩)
      unfold Within at this
      omega
  · intro b hb
    by_cases w : Within a n b
    · obtain ⟨k, hk, rfl⟩ := (within_iff _ _ _ (by omega)).1 w
      rw [writeLE_byte _ _ _ _ _ (by omega) hk, ofNat_byte p a n k hk]
    · have w' := w
      unfold Within at w
      rw [writeLE_frame _ _ _ _ (by omega) _ (by omega)]
      refine h.same b (fun c k hc hk => ?_)
      by_cases e : c = a
      · subst e
        rw [length_unique hk hl]; exact w'
      · exact hb c k ⟨e, hc⟩ hk

theorem patched_congr {p m : Memory} {S T : BitVec 64 → Prop} (h : Patched p m S)
    (e : ∀ a n, Length p a n → (S a ↔ T a)) : Patched p m T :=
  ⟨fun a n ha hl => h.patched a n ((e a n hl).2 ha) hl,
   fun b hb => h.same b (fun a n ha hl => hb a n ((e a n hl).1 ha) hl)⟩

theorem isSet_nil (a : BitVec 64) : ¬IsSet [] a := by simp [IsSet]

theorem isSet_set (ops : List Op) (a b : BitVec 64) :
    IsSet (ops ++ [.set a]) b ↔ b = a ∨ IsSet ops b := by
  unfold IsSet
  rw [List.filter_append]
  by_cases e : b = a
  · subst e; simp [addr?]
  · have e' : ¬ a = b := fun h => e h.symm
    simp [addr?, e, e']

theorem isSet_clear (ops : List Op) (a b : BitVec 64) :
    IsSet (ops ++ [.clear a]) b ↔ b ≠ a ∧ IsSet ops b := by
  unfold IsSet
  rw [List.filter_append]
  by_cases e : b = a
  · subst e; simp [addr?]
  · have e' : ¬ a = b := fun h => e h.symm
    simp [addr?, e, e']

theorem isSet_store (ops : List Op) (c : BitVec 64) (v : BitVec 8) (b : BitVec 64) :
    IsSet (ops ++ [.store c v]) b ↔ IsSet ops b := by
  unfold IsSet
  rw [List.filter_append]
  simp [addr?]

theorem isSet_mem {ops : List Op} {a : BitVec 64} (h : IsSet ops a) : Op.set a ∈ ops := by
  have := List.mem_of_getLast? h
  exact (List.mem_filter.1 this).1

theorem program_append (p : Memory) (ops ops' : List Op) :
    program p (ops ++ ops') = program (program p ops) ops' := by
  induction ops generalizing p with
  | nil => rfl
  | cons op ops ih => cases op <;> simp [program, ih]

theorem snoc_induction {α : Type} {P : List α → Prop} (h0 : P [])
    (h1 : ∀ xs x, P xs → P (xs ++ [x])) (xs : List α) : P xs := by
  have : ∀ ys : List α, P ys.reverse := by
    intro ys
    induction ys with
    | nil => exact h0
    | cons y ys ih => rw [List.reverse_cons]; exact h1 _ _ ih
  simpa using this xs.reverse

theorem run_snoc (s : State) (ops : List Op) (op : Op) :
    run s (ops ++ [op]) = (step (run s ops) op).1 := by
  simp [run, List.foldl_append]

/-- What holds after any sequence of events. -/
structure Inv (p : Memory) (ops : List Op) (s : State) : Prop where
  mem : Patched (program p ops) s.mem (IsSet ops)
  /-- what is remembered is the program's instruction -/
  info : ∀ a i, s.map a = some i → Length (program p ops) a i.size ∧
    i.word = readLE (program p ops) a i.size
  /-- set breakpoints are remembered -/
  known : ∀ a n, IsSet ops a → Length (program p ops) a n → s.map a ≠ none
  /-- only addresses a call was about are remembered -/
  asked : ∀ a, s.map a ≠ none → Op.set a ∈ ops

/-- The bytes at a breakpoint address are those of the initial memory. -/
theorem program_at (p : Memory) (all ops : List Op) (sub : ∀ op, op ∈ ops → op ∈ all)
    (st : StoresElsewhere p all) (op : Op) (hop : op ∈ all) (a : BitVec 64) (ha : addr? op = some a)
    (n : Nat) (hn : n = 1 ∨ Length p a n) (b : BitVec 64) (hb : Within a n b) :
    program p ops b = p b := by
  revert sub
  refine snoc_induction (P := fun ops => (∀ op, op ∈ ops → op ∈ all) → program p ops b = p b)
    (fun _ => rfl) ?_ ops
  intro ops o ih sub
  have ih := ih (fun o ho => sub o (List.mem_append.2 (Or.inl ho)))
  have ho := sub o (List.mem_append.2 (Or.inr (List.mem_singleton.2 rfl)))
  rw [program_append]
  cases o with
  | set c => exact ih
  | clear c => exact ih
  | store c v =>
    show setByte (program p ops) c v b = p b
    have := st c v ho op hop a ha n hn
    rw [setByte, if_neg, ih]
    rintro rfl
    exact this hb

theorem within_self (a : BitVec 64) : Within a 1 a := by simp [Within]

theorem program_length (p : Memory) (all ops : List Op) (sub : ∀ op, op ∈ ops → op ∈ all)
    (st : StoresElsewhere p all) (op : Op) (hop : op ∈ all) (a : BitVec 64) (ha : addr? op = some a)
    (n : Nat) : Length (program p ops) a n ↔ Length p a n := by
  unfold Length
  rw [program_at p all ops sub st op hop a ha 1 (Or.inl rfl) a (within_self a)]

/-- An ordinary store that misses the patched instructions. -/
theorem patched_store {p m : Memory} {S : BitVec 64 → Prop} (h : Patched p m S) (b : BitVec 64)
    (v : BitVec 8) (hb : ∀ a n, S a → n = 1 ∨ Length p a n → ¬Within a n b) :
    Patched (setByte p b v) (setByte m b v) S := by
  have hl : ∀ a n, S a → (Length (setByte p b v) a n ↔ Length p a n) := by
    intro a n ha
    have hne : a ≠ b := by
      rintro rfl
      exact hb a 1 ha (Or.inl rfl) (within_self a)
    unfold Length
    rw [setByte, if_neg hne]
  constructor
  · intro a n ha hn k hk
    rw [hl a n ha] at hn
    have := length_le hn
    have hne : a + BitVec.ofNat 64 k ≠ b := by
      intro e
      exact hb a n ha (Or.inr hn) ((within_iff _ _ _ (by omega)).2 ⟨k, hk, e.symm⟩)
    rw [setByte, if_neg hne]
    exact h.patched a n ha hn k hk
  · intro c hc
    unfold setByte
    split
    · rfl
    · exact h.same c (fun a n ha hn => hc a n ha ((hl a n ha).2 hn))

theorem inv_run (p : Memory) (all : List Op) (ap : Apart p all) (st : StoresElsewhere p all)
    (ops : List Op) (sub : ∀ op, op ∈ ops → op ∈ all) : Inv p ops (run (init p) ops) := by
  revert sub
  refine snoc_induction
    (P := fun ops => (∀ op, op ∈ ops → op ∈ all) → Inv p ops (run (init p) ops)) ?_ ?_ ops
  · intro _
    exact ⟨⟨fun a n h => absurd h (isSet_nil a), fun b _ => rfl⟩, fun a i h => by simp [run, init] at h,
      fun a n h => absurd h (isSet_nil a), fun a h => absurd rfl h⟩
  intro ops op ih sub
  have sub' : ∀ o, o ∈ ops → o ∈ all := fun o ho => sub o (List.mem_append.2 (Or.inl ho))
  have hop := sub op (List.mem_append.2 (Or.inr (List.mem_singleton.2 rfl)))
  have I := ih sub'
  rw [run_snoc]
  generalize hs : run (init p) ops = s at I
  have hlen := program_length p all ops sub' st
  cases op with
  | set a =>
    have ep : program p (ops ++ [.set a]) = program p ops := by rw [program_append]; rfl
    have ha := hlen _ hop a rfl
    -- other set breakpoints do not overlap this instruction
    have apart : ∀ b k n, IsSet ops b → b ≠ a → Length (program p ops) b k →
        (n = 1 ∨ Length (program p ops) a n) → ¬Within b k a ∧ ¬Within a n b := by
      intro b k n hb ne hk hn
      have hm := sub' _ (isSet_mem hb)
      have hk' := (hlen _ hm b rfl k).1 hk
      exact ⟨ap _ hop _ hm a b rfl rfl (fun e => ne e.symm) k (Or.inr hk'),
        ap _ hm _ hop b a rfl rfl ne n (hn.imp id (ha n).1)⟩
    show Inv p _ (setBreakpoint s a).1
    unfold setBreakpoint
    cases hm : s.map a with
    | some i =>
      obtain ⟨hl, hw⟩ := I.info a i hm
      have h2 := length_le hl
      have em : (patch s a i).mem = writeLE s.mem a i.size (breakWord i.size) := by
        rcases h2 with h2 | h2 <;> simp [patch, h2, breakWord, eBreak16, eBreak32]
      constructor
      · show Patched _ (patch s a i).mem _
        rw [em, ep]
        refine patched_congr (patched_set I.mem hl
          (fun b k hb ne hk => apart b k i.size hb ne hk (Or.inr hl))) ?_
        intro b n _
        rw [isSet_set]
      · rw [ep]; exact I.info
      · rw [ep]
        intro b n hb hl'
        show s.map b ≠ none
        rcases (isSet_set ops a b).1 hb with e | hb
        · rw [e, hm]; simp
        · exact I.known b n hb hl'
      · intro b hb
        exact List.mem_append.2 (Or.inl (I.asked b hb))
    | none =>
      -- the instruction's bytes are the program's
      have bytes : ∀ n, n = 1 ∨ Length (program p ops) a n → ∀ b, Within a n b →
          s.mem b = program p ops b := by
        intro n hn b hb
        refine I.mem.same b (fun c k hc hk => ?_)
        have ne : c ≠ a := by
          rintro rfl
          exact I.known c k hc hk hm
        have := apart c k n hc ne hk hn
        have hk2 := length_le hk
        have hn2 : n ≤ 4 := by
          rcases hn with h | h
          · omega
          · have := length_le h; omega
        exact disjoint a c b n k hn2 (by omega) this.2 this.1 hb
      have hb0 : s.mem a = program p ops a := bytes 1 (Or.inl rfl) a (within_self a)
      have hls : ∀ n, Length s.mem a n ↔ Length (program p ops) a n := by
        intro n; unfold Length; rw [hb0]
      simp only
      by_cases z : instructionSize (readLE s.mem a 4) = 0
      · rw [if_pos z]
        have nl : ∀ n, ¬Length (program p ops) a n := by
          intro n hn
          have := (size_spec s.mem a n).2 ((hls n).2 hn)
          omega
        constructor
        · rw [ep]
          refine patched_congr I.mem ?_
          intro b n hb
          rw [isSet_set]
          constructor
          · exact Or.inr
          · rintro (rfl | h)
            · exact absurd hb (nl n)
            · exact h
        · rw [ep]; exact I.info
        · rw [ep]
          intro b n hb hl'
          rcases (isSet_set ops a b).1 hb with e | hb
          · rw [e] at hl'; exact absurd hl' (nl n)
          · exact I.known b n hb hl'
        · intro b hb
          exact List.mem_append.2 (Or.inl (I.asked b hb))
      · rw [if_neg z]
        generalize hn : instructionSize (readLE s.mem a 4) = n at z
        have hl : Length (program p ops) a n := (hls n).1 ((size_spec s.mem a n).1 ⟨hn, z⟩)
        have h2 := length_le hl
        have hw : (if n = 2 then readLE s.mem a 4 % 65536 else readLE s.mem a 4)
            = readLE (program p ops) a n := by
          have e : readLE s.mem a n = readLE (program p ops) a n :=
            readLE_congr _ _ _ _ (fun i hi => bytes n (Or.inr hl) _
              ((within_iff _ _ _ (by omega)).2 ⟨i, hi, rfl⟩))
          rw [← e]
          rcases h2 with h2 | h2
          · subst h2
            have := (s.mem a).isLt
            have := (s.mem (a + 1#64)).isLt
            simp only [readLE, if_true]
            omega
          · subst h2; rfl
        rw [hw]
        generalize hi : (⟨n, readLE (program p ops) a n⟩ : Info) = i
        have h3 : i.size = n := by rw [← hi]
        have em : (patch { s with map := setMap s.map a i } a i).mem
            = writeLE s.mem a n (breakWord n) := by
          rcases h2 with h2 | h2 <;> simp [patch, h3, h2, breakWord, eBreak16, eBreak32]
        constructor
        · show Patched _ (patch { s with map := setMap s.map a i } a i).mem _
          rw [em, ep]
          refine patched_congr (patched_set I.mem hl
            (fun b k hb ne hk => apart b k n hb ne hk (Or.inr hl))) ?_
          intro b n _
          rw [isSet_set]
        · rw [ep]
          intro b j hj
          have hj : setMap s.map a i b = some j := hj
          unfold setMap at hj
          by_cases e : b = a
          · rw [if_pos e] at hj
            have : j = i := (Option.some.inj hj).symm
            subst this
            rw [e, ← hi]; exact ⟨hl, rfl⟩
          · rw [if_neg e] at hj
            exact I.info b j hj
        · rw [ep]
          intro b k hb hl'
          show setMap s.map a i b ≠ none
          unfold setMap
          by_cases e : b = a
          · rw [if_pos e]; simp
          · rw [if_neg e]
            exact I.known b k (((isSet_set ops a b).1 hb).resolve_left e) hl'
        · intro b hb
          have hb : setMap s.map a i b ≠ none := hb
          unfold setMap at hb
          by_cases e : b = a
          · rw [e]; exact List.mem_append.2 (Or.inr (List.mem_singleton.2 rfl))
          · rw [if_neg e] at hb
            exact List.mem_append.2 (Or.inl (I.asked b hb))
  | clear a =>
    have ep : program p (ops ++ [.clear a]) = program p ops := by rw [program_append]; rfl
    have ha := hlen _ hop a rfl
    show Inv p _ (restore s a).1
    unfold restore
    cases hm : s.map a with
    | none =>
      constructor
      · rw [ep]
        refine patched_congr I.mem ?_
        intro b n hb
        rw [isSet_clear]
        constructor
        · intro h
          refine ⟨?_, h⟩
          rintro rfl
          exact I.known b n h hb hm
        · exact fun h => h.2
      · rw [ep]; exact I.info
      · rw [ep]
        exact fun b n hb hl' => I.known b n ((isSet_clear ops a b).1 hb).2 hl'
      · exact fun b hb => List.mem_append.2 (Or.inl (I.asked b hb))
    | some i =>
      obtain ⟨hl, hw⟩ := I.info a i hm
      have h2 := length_le hl
      have em : (if i.size = 2 then writeLE s.mem a 2 (i.word % 65536)
          else if i.size = 4 then writeLE s.mem a 4 i.word else s.mem)
          = writeLE s.mem a i.size (readLE (program p ops) a i.size) := by
        rw [hw]
        rcases h2 with h2 | h2
        · have := readLE_lt (program p ops) a 2
          simp only [h2, if_true]
          rw [Nat.mod_eq_of_lt (by simpa using this)]
        · simp [h2]
      constructor
      · show Patched _ (if i.size = 2 then _ else _) _
        rw [em, ep]
        refine patched_congr (patched_clear I.mem hl ?_) ?_
        · intro b k hb ne hk
          have hmb := sub' _ (isSet_mem hb)
          exact ⟨ap _ hop _ hmb a b rfl rfl (fun e => ne e.symm) k
              (Or.inr ((hlen _ hmb b rfl k).1 hk)),
            ap _ hmb _ hop b a rfl rfl ne _ (Or.inr ((ha _).1 hl))⟩
        · intro b n _
          rw [isSet_clear]
      · rw [ep]; exact I.info
      · rw [ep]
        exact fun b n hb hl' => I.known b n ((isSet_clear ops a b).1 hb).2 hl'
      · exact fun b hb => List.mem_append.2 (Or.inl (I.asked b hb))
  | store b v =>
    have ep : program p (ops ++ [.store b v]) = setByte (program p ops) b v := by
      rw [program_append]; rfl
    have miss : ∀ a, Op.set a ∈ ops → ∀ n, n = 1 ∨ Length (program p ops) a n → ¬Within a n b := by
      intro a ha n hn
      exact st b v hop _ (sub' _ ha) a rfl n (hn.imp id (hlen _ (sub' _ ha) a rfl n).1)
    have hkeep : ∀ a, Op.set a ∈ ops → ∀ n,
        (Length (setByte (program p ops) b v) a n ↔ Length (program p ops) a n) := by
      intro a ha n
      have hne : a ≠ b := by
        rintro rfl
        exact miss a ha 1 (Or.inl rfl) (within_self a)
      unfold Length
      rw [setByte, if_neg hne]
    show Inv p _ { s with mem := setByte s.mem b v }
    constructor
    · rw [ep]
      refine patched_congr (patched_store I.mem b v ?_) ?_
      · exact fun a n ha hn => miss a (isSet_mem ha) n hn
      · intro a n _
        rw [isSet_store]
    · rw [ep]
      intro a i hi
      have hi : s.map a = some i := hi
      have hm : Op.set a ∈ ops := I.asked a (by rw [hi]; simp)
      obtain ⟨hl, hw⟩ := I.info a i hi
      refine ⟨(hkeep a hm _).2 hl, ?_⟩
      rw [hw]
      have := length_le hl
      refine readLE_congr _ _ _ _ (fun k hk => ?_)
      rw [setByte, if_neg]
      intro e
      exact miss a hm i.size (Or.inr hl) ((within_iff _ _ _ (by omega)).2 ⟨k, hk, e.symm⟩)
    · rw [ep]
      intro a n ha hl
      have ha := (isSet_store ops b v a).1 ha
      exact I.known a n ha ((hkeep a (isSet_mem ha) n).1 hl)
    · exact fun a ha => List.mem_append.2 (Or.inl (I.asked a ha))

/-- C53: after any sequence of sets, clears and ordinary stores, memory is the program with the
breakpoint instruction at exactly the addresses whose last call was a set; every other byte is the
program's. Partial: the instructions at breakpoint addresses must not overlap, and nothing else may
store to them; the two theorems `…_violated` below show both conditions are needed. -/
theorem C53_patching_partial (p : Memory) (ops : List Op) (ap : Apart p ops)
    (st : StoresElsewhere p ops) :
    Patched (program p ops) (run (init p) ops).mem (IsSet ops) :=
  (inv_run p ops ap st ops (fun _ h => h)).mem

/-- C53: once every breakpoint is cleared, memory is exactly the program. -/
theorem C53_restored_partial (p : Memory) (ops : List Op) (ap : Apart p ops)
    (st : StoresElsewhere p ops) (cl : ∀ a, ¬IsSet ops a) :
    (run (init p) ops).mem = program p ops := by
  funext b
  exact (C53_patching_partial p ops ap st).same b (fun a _ ha => absurd ha (cl a))

/-- C53: a set fails, changing nothing, only where no two- or four-byte instruction starts; a clear
fails, changing nothing, only if no set at that address ever succeeded. Every call that succeeds
invalidates the decoding of its address. Holds in every state. -/
theorem C53_status (s : State) (a : BitVec 64) :
    ((setBreakpoint s a).2 = .ok ∧ (setBreakpoint s a).1.log = s.log ++ [a]
        ∧ (setBreakpoint s a).1.map a ≠ none
      ∨ (setBreakpoint s a).2 = .invalidArgument ∧ (setBreakpoint s a).1 = s
        ∧ ∀ n, ¬Length s.mem a n) ∧
    ((restore s a).2 = .ok ∧ (restore s a).1.log = s.log ++ [a]
      ∨ (restore s a).2 = .notFound ∧ (restore s a).1 = s ∧ s.map a = none) := by
  constructor
  · unfold setBreakpoint
    cases hm : s.map a with
    | some i => left; exact ⟨rfl, rfl, by simp [patch, hm]⟩
    | none =>
      simp only
      by_cases z : instructionSize (readLE s.mem a 4) = 0
      · rw [if_pos z]
        right
        refine ⟨rfl, rfl, fun n hn => ?_⟩
        have := (size_spec s.mem a n).2 hn
        omega
      · rw [if_neg z]
        left
        exact ⟨rfl, rfl, by simp [patch, setMap]⟩
  · unfold restore
    cases hm : s.map a with
    | some i => left; exact ⟨rfl, rfl⟩
    | none => right; exact ⟨rfl, rfl, rfl⟩

/-! ### A program with a two-byte and a four-byte instruction, to meet the hypotheses -/

/-- `c.nop` at 0x1000, `addi x0, x0, 0` at 0x1002, zeros elsewhere. -/
def prog : Memory := fun b =>
  if b = 0x1000#64 then 0x01 else if b = 0x1002#64 then 0x13 else 0

def history : List Op :=
  [.set 0x1000#64, .set 0x1002#64, .store 0x2000#64 7, .clear 0x1000#64, .set 0x1000#64,
   .clear 0x1002#64]

theorem prog_apart : Apart prog history := by
  intro op h op' h' a b ha hb ne n hn
  simp only [history, List.mem_cons, List.not_mem_nil, or_false] at h h'
  rcases h with rfl | rfl | rfl | rfl | rfl | rfl <;> rcases h' with rfl | rfl | rfl | rfl | rfl | rfl <;>
    simp only [addr?, Option.some.injEq, reduceCtorEq] at ha hb <;> subst ha <;> subst hb <;>
    first
    | exact absurd rfl ne
    | (simp [Length, prog] at hn; simp [Within]; omega)

theorem prog_stores : StoresElsewhere prog history := by
  intro b v h op h' a ha n hn
  simp only [history, List.mem_cons, List.not_mem_nil, or_false, reduceCtorEq, Op.store.injEq,
    false_or] at h h'
  obtain ⟨rfl, rfl⟩ := h
  rcases h' with rfl | rfl | rfl | rfl | rfl | rfl <;>
    simp only [addr?, Option.some.injEq, reduceCtorEq] at ha <;> subst ha <;>
    (simp [Length, prog] at hn; simp [Within]; omega)

example : Patched (program prog history) (run (init prog) history).mem (IsSet history) :=
  C53_patching_partial _ _ prog_apart prog_stores
example : IsSet history 0x1000#64 ∧ ¬IsSet history 0x1002#64 := by
  simp [IsSet, history, addr?]
example : (run (init prog) history).mem 0x1001#64 = 0x90#8
    ∧ (run (init prog) history).mem 0x1002#64 = 0x13#8 := by decide

/-! ### Violations -/

/-- The order of clearing matters when instructions overlap: breakpoints set at a four-byte instruction
and then at its third byte, and cleared in the same order, leave the third and fourth byte holding the
breakpoint instruction's. -/
theorem C53_overlap_violated :
    let ops : List Op := [.set 0x1002#64, .set 0x1004#64, .clear 0x1002#64, .clear 0x1004#64]
    (∀ a, ¬IsSet ops a) ∧ prog 0x1004#64 = 0x00#8 ∧ (run (init prog) ops).mem 0x1004#64 = 0x10#8 := by
  refine ⟨?_, by decide, by decide⟩
  intro a h
  have := isSet_mem h
  simp only [List.mem_cons, Op.set.injEq, reduceCtorEq, List.not_mem_nil, or_false] at this
  rcases this with rfl | rfl <;> simp [IsSet, addr?] at h

/-- The original instruction is remembered for ever: if the program changes after a breakpoint was
cleared, setting and clearing it again brings the old instruction back. For every memory, address of
a two-byte instruction and new first byte. -/
theorem C53_stale_violated (p : Memory) (a : BitVec 64) (v : BitVec 8) (hl : Length p a 2)
    (hv : v ≠ p a) :
    let ops : List Op := [.set a, .clear a, .store a v, .set a, .clear a]
    (∀ b, ¬IsSet ops b) ∧ program p ops a = v ∧ (run (init p) ops).mem a = p a := by
  refine ⟨?_, by simp [program, setByte], ?_⟩
  · intro b h
    have := isSet_mem h
    simp only [List.mem_cons, Op.set.injEq, reduceCtorEq, List.not_mem_nil, or_false, false_or,
      or_self] at this
    subst this
    simp [IsSet, addr?] at h
  · have hz := (size_spec p a 2).2 hl
    have hb := (p a).isLt
    have key : BitVec.ofNat 8 (readLE p a 4 % 65536 % 65536) = p a := by
      apply BitVec.eq_of_toNat_eq
      rw [BitVec.toNat_ofNat]
      simp only [readLE]
      omega
    simp [run, step, setBreakpoint, restore, init, patch, setMap, hz.1, writeLE, setByte]
    simpa using key

example : Length prog 0x1000#64 2 := by simp [Length, prog]

end Verif.ActionPoint
