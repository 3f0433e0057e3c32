import Verif.Inspect.Model
import Verif.Inspect.Spec
import Verif.ActionPoint.Props
import Verif.Fetch.Props

/-!
# C138: looking at an instruction
-/
namespace Verif.Inspect

open Core (Memory readLE writeLE setByte)
open ActionPoint ActionPoint.Spec Inspect.Spec

/-- The top level after a history of breakpoints set and cleared and of stores: they are active where they are
set, and the cache holds nothing that decoding would not yield now (C96). -/
structure After (p : Memory) (ops : List Op) (t : Top) : Prop where
  code : t.code = run (init p) ops
  active : ∀ a, t.active a = true ↔ IsSet ops a
  cache : ∀ a w, t.cache a = some w → w = Fetch.loadWord t.code.mem a

/-! ## The steps -/

theorem access_code (t : Top) (s : Bool) (a : BitVec 64) (n : Nat) :
    (access t s a n).code = t.code ∧ (access t s a n).cache = t.cache ∧ (access t s a n).active = t.active ∧
      (access t s a n).watch = t.watch := by
  unfold access; split <;> exact ⟨rfl, rfl, rfl, rfl⟩

theorem access_quiet {t : Top} {s : Bool} {a : BitVec 64} {n : Nat}
    (h : Watch.triggers t.watch .debugger s a n = false) : access t s a n = t := by
  unfold access; rw [h]; rfl

/-- What looking at a breakpoint comes to, where its instruction is known. -/
theorem look_active (t : Top) (a : BitVec 64) (i : Info) (ha : t.active a = true) (hm : t.code.map a = some i) :
    (look t a).2 = Fetch.loadWord (restore t.code a).1.mem a ∧
    (look t a).1.code = (setBreakpoint (restore t.code a).1 a).1 ∧
    (look t a).1.cache = Fetch.update t.cache a none ∧
    (look t a).1.active = t.active ∧ (look t a).1.watch = t.watch ∧
    (look t a).1.reason = (access t true a i.size).reason ∧ (look t a).1.halted = (access t true a i.size).halted ∧
    (look t a).1.seen = (access t true a i.size).seen := by
  have hr : (restore t.code a).1.map a = some i := by unfold restore; rw [hm]; exact hm
  have hs : setBreakpoint (restore t.code a).1 a = (patch (restore t.code a).1 a i, .ok) := by
    unfold setBreakpoint; rw [hr]
  have hp : (patch (restore t.code a).1 a i).map a = some i := hr
  have hu : ∀ (f : BitVec 64 → Option (BitVec 32)) (w : BitVec 32),
      Fetch.update (Fetch.update (Fetch.update (Fetch.update f a none) a none) a (some w)) a none =
        Fetch.update f a none := by
    intro f w; funext b; unfold Fetch.update; split <;> rfl
  unfold look
  rw [if_pos ha]
  unfold writeOriginal
  rw [hm]
  unfold writeBreakpoint decoded invalidate access
  cases hw : Watch.triggers t.watch .debugger true a i.size with
  | true =>
    simp only [hw, hs, hr, hp, if_true, Option.isNone_some, Bool.false_eq_true, if_false, hu]
    simp [Fetch.update]
  | false =>
    simp only [hw, hs, hr, hp, Option.isNone_some, Bool.false_eq_true, if_false, hu]
    simp [Fetch.update]

/-! ## Memory is determined by the program and the breakpoints -/

theorem patched_unique {p m m' : Memory} {S : BitVec 64 → Prop} (h : Patched p m S) (h' : Patched p m' S) : m = m' := by
  funext b
  by_cases hb : ∃ a n, S a ∧ Length p a n ∧ Within a n b
  · obtain ⟨a, n, ha, hl, hw⟩ := hb
    have := length_le hl
    obtain ⟨k, hk, e⟩ := (within_iff _ _ _ (by omega)).1 hw
    rw [e, h.patched a n ha hl k hk, h'.patched a n ha hl k hk]
  · have : ∀ a n, S a → Length p a n → ¬Within a n b := fun a n ha hl hw => hb ⟨a, n, ha, hl, hw⟩
    rw [h.same b this, h'.same b this]

theorem bytes_eq (w : BitVec 32) (m : Memory) (a : BitVec 64) (n : Nat) (hl : Length m a n)
    (hw : w = Fetch.loadWord m a) : Fetch.Spec.bytes w = n := by
  have h0 := Fetch.loadWord_byte m a 0 (by omega)
  simp only [BitVec.ofNat_eq_ofNat, BitVec.add_zero, Nat.pow_zero, Nat.div_one] at h0
  unfold Fetch.Spec.bytes
  rw [hw]
  unfold Length at hl
  split <;> omega

/-- Where memory has the program's bytes, the word decoded is the program's instruction. -/
theorem holds_program {m q : Memory} {a : BitVec 64} {n : Nat} (hl : Length q a n)
    (h : ∀ c, Within a n c → m c = q c) : Fetch.Spec.Holds q a (Fetch.loadWord m a) := by
  have hn := length_le hl
  have ha : m a = q a := h a (by unfold Within; simp; omega)
  have hl' : Length m a n := by unfold Length at *; rw [ha]; exact hl
  intro k hk
  rw [bytes_eq _ m a n hl' rfl] at hk
  rw [← h _ ((within_iff _ _ _ (by omega)).2 ⟨k, hk, rfl⟩)]
  exact Fetch.loadWord_byte m a k (by omega)

/-- Further calls about breakpoints already there keep the conditions of C53. -/
theorem again {p : Memory} {ops : List Op} {a : BitVec 64} (ha : IsSet ops a) (ap : Apart p ops)
    (st : StoresElsewhere p ops) (l : List Op) (hl : ∀ o ∈ l, o = .set a ∨ o = .clear a) :
    Apart p (ops ++ l) ∧ StoresElsewhere p (ops ++ l) := by
  have key : ∀ o ∈ ops ++ l, ∀ b, addr? o = some b → ∃ o' ∈ ops, addr? o' = some b := by
    intro o ho b hb
    rcases List.mem_append.1 ho with ho | ho
    · exact ⟨o, ho, hb⟩
    · rcases hl o ho with rfl | rfl <;> exact ⟨.set a, isSet_mem ha, hb⟩
  constructor
  · intro o ho o' ho' b c hb hc
    obtain ⟨q, hq, hqb⟩ := key o ho b hb
    obtain ⟨q', hq', hqc⟩ := key o' ho' c hc
    exact ap q hq q' hq' b c hqb hqc
  · intro b v hs o ho c hc
    obtain ⟨q, hq, hqc⟩ := key o ho c hc
    rcases List.mem_append.1 hs with hs | hs
    · exact st b v hs q hq c hqc
    · rcases hl _ hs with e | e <;> cases e

theorem program_clear (p : Memory) (ops : List Op) (a : BitVec 64) :
    program p (ops ++ [.clear a]) = program p ops ∧ program p (ops ++ [.clear a] ++ [.set a]) = program p ops := by
  rw [program_append, program_append, program_append]
  exact ⟨rfl, rfl⟩

variable {p : Memory} {ops : List Op} {t : Top}

/-- **C138.** At every address at which the program has an instruction of two or four bytes, breakpoint or not, the
debugger is shown the program's own instruction. Partial: the breakpoints must not overlap, nor be stored to by the
program (C53), nor lie inside the instruction looked at, and the cache must be up to date (C96). -/
theorem C138_shows_partial (h : After p ops t) (ap : Apart p ops) (st : StoresElsewhere p ops) (a : BitVec 64)
    (n : Nat) (hl : Length (program p ops) a n) (hc : ¬ IsSet ops a → Clear p ops a) :
    Fetch.Spec.Holds (program p ops) a (look t a).2 := by
  have I := inv_run p ops ap st ops (fun _ h => h)
  by_cases hs : IsSet ops a
  · obtain ⟨i, hi⟩ := Option.ne_none_iff_exists'.1 (I.known a n hs hl)
    obtain ⟨ap', st'⟩ := again hs ap st [.clear a] (by simp)
    have J := inv_run p _ ap' st' _ (fun _ h => h)
    rw [(look_active t a i ((h.active a).2 hs) (by rw [h.code]; exact hi)).1, h.code]
    have e : (restore (run (init p) ops) a).1 = run (init p) (ops ++ [.clear a]) := by
      rw [run_snoc]; rfl
    rw [e]
    have P := J.mem
    rw [(program_clear p ops a).1] at P
    refine holds_program hl fun c hcin => P.same c fun b m hb hlb => ?_
    obtain ⟨hne, hb'⟩ := (isSet_clear ops a b).1 hb
    have hla : n = 1 ∨ Length p a n := .inr ((program_length p ops ops (fun _ h => h) st _ (isSet_mem hs) a rfl n).1 hl)
    have hlb' : m = 1 ∨ Length p b m :=
      .inr ((program_length p ops ops (fun _ h => h) st _ (isSet_mem hb') b rfl m).1 hlb)
    exact disjoint a b c n m (by have := length_le hl; omega) (by have := length_le hlb; omega)
      (ap _ (isSet_mem hb') _ (isSet_mem hs) b a rfl rfl hne n hla)
      (ap _ (isSet_mem hs) _ (isSet_mem hb') a b rfl rfl (Ne.symm hne) m hlb') hcin
  · have hf : t.active a = false := by
      cases hx : t.active a with
      | false => rfl
      | true => exact absurd ((h.active a).1 hx) hs
    have e : (look t a).2 = Fetch.loadWord t.code.mem a := by
      unfold look
      rw [hf]
      show (t.cache a).getD _ = _
      cases hx : t.cache a with
      | none => rfl
      | some w => exact h.cache a w hx
    rw [e, h.code]
    exact holds_program hl fun c hcin => I.mem.same c fun b m hb hlb => hc hs n hl b m hb hlb c hcin

/-- **C138.** Looking leaves memory as it is, with all its breakpoints, and the core carries out afterwards what it
would have carried out: what the cache then holds is what memory holds. Partial as before. -/
theorem C138_same_partial (h : After p ops t) (ap : Apart p ops) (st : StoresElsewhere p ops) (a : BitVec 64)
    (hk : IsSet ops a → ∃ n, Length (program p ops) a n) :
    (look t a).1.code.mem = t.code.mem ∧ (look t a).1.active = t.active ∧ (look t a).1.watch = t.watch ∧
      ∀ b w, (look t a).1.cache b = some w → w = Fetch.loadWord t.code.mem b := by
  by_cases hs : IsSet ops a
  · obtain ⟨n, hl⟩ := hk hs
    have I := inv_run p ops ap st ops (fun _ h => h)
    obtain ⟨i, hi⟩ := Option.ne_none_iff_exists'.1 (I.known a n hs hl)
    obtain ⟨ap', st'⟩ := again hs ap st [.clear a, .set a] (by simp)
    obtain ⟨_, l2, l3, l4, l5, _⟩ := look_active t a i ((h.active a).2 hs) (by rw [h.code]; exact hi)
    have e : (look t a).1.code = run (init p) (ops ++ [.clear a] ++ [.set a]) := by
      rw [l2, h.code, run_snoc, run_snoc]; rfl
    have J := inv_run p (ops ++ [.clear a, .set a]) ap' st' _ (fun _ h => h)
    have P := J.mem
    rw [show ops ++ [Op.clear a, .set a] = ops ++ [.clear a] ++ [.set a] by simp, (program_clear p ops a).2] at P
    have hm : (look t a).1.code.mem = t.code.mem := by
      rw [e, h.code]
      refine patched_unique P (patched_congr I.mem fun b => ?_)
      rw [isSet_set, isSet_clear]
      by_cases hb : b = a
      · rw [hb]; simp [hs]
      · simp [hb]
    refine ⟨hm, l4, l5, fun b w hw => ?_⟩
    rw [l3] at hw
    unfold Fetch.update at hw
    split at hw
    · cases hw
    · exact h.cache b w hw
  · have hf : t.active a = false := by
      cases hx : t.active a with
      | false => rfl
      | true => exact absurd ((h.active a).1 hx) hs
    have e : look t a = decoded t a := by unfold look; rw [hf]; rfl
    rw [e]
    refine ⟨rfl, rfl, rfl, fun b w hw => ?_⟩
    have hw : Fetch.update t.cache a (some ((t.cache a).getD (Fetch.loadWord t.code.mem a))) b = some w := hw
    unfold Fetch.update at hw
    split at hw
    · next hb =>
      rw [hb]
      cases hx : t.cache a with
      | none => rw [hx] at hw; exact (Option.some.inj hw).symm
      | some v => rw [hx] at hw; exact (Option.some.inj hw) ▸ h.cache a v hx
    · exact h.cache b w hw

/-- A look is a clear and a set of the breakpoint, if there is one. -/
theorem look_after (h : After p ops t) (ap : Apart p ops) (st : StoresElsewhere p ops) (a : BitVec 64)
    (hk : IsSet ops a → ∃ n, Length (program p ops) a n) :
    ∃ l, (∀ o ∈ l, IsSet ops a ∧ (o = .set a ∨ o = .clear a)) ∧ After p (ops ++ l) (look t a).1 ∧
      (∀ b, IsSet (ops ++ l) b ↔ IsSet ops b) ∧ program p (ops ++ l) = program p ops := by
  obtain ⟨hm, hac, _, hca⟩ := C138_same_partial h ap st a hk
  by_cases hs : IsSet ops a
  · obtain ⟨n, hl⟩ := hk hs
    have I := inv_run p ops ap st ops (fun _ h => h)
    obtain ⟨i, hi⟩ := Option.ne_none_iff_exists'.1 (I.known a n hs hl)
    obtain ⟨_, l2, _⟩ := look_active t a i ((h.active a).2 hs) (by rw [h.code]; exact hi)
    have hset : ∀ b, IsSet (ops ++ [.clear a, .set a]) b ↔ IsSet ops b := by
      intro b
      rw [show ops ++ [Op.clear a, .set a] = ops ++ [.clear a] ++ [.set a] by simp, isSet_set, isSet_clear]
      by_cases hb : b = a
      · rw [hb]; simp [hs]
      · simp [hb]
    refine ⟨[.clear a, .set a], by simp [hs], ⟨?_, fun b => ?_, fun b w hw => ?_⟩, hset, ?_⟩
    · rw [show ops ++ [Op.clear a, .set a] = ops ++ [.clear a] ++ [.set a] by simp, l2, h.code, run_snoc, run_snoc]
      rfl
    · rw [hac, hset]; exact h.active b
    · rw [hm]; exact hca b w hw
    · rw [show ops ++ [Op.clear a, .set a] = ops ++ [.clear a] ++ [.set a] by simp]
      exact (program_clear p ops a).2
  · refine ⟨[], by simp, ?_, by simp, by simp⟩
    have hf : t.active a = false := by
      cases hx : t.active a with
      | false => rfl
      | true => exact absurd ((h.active a).1 hx) hs
    have e : (look t a).1.code = t.code := by unfold look; rw [hf]; rfl
    rw [List.append_nil]
    refine ⟨e.trans h.code, fun b => ?_, fun b w hw => ?_⟩
    · rw [hac]; exact h.active b
    · rw [hm]; exact hca b w hw

/-- One address looked at after the other, as the shell does for its prompt and for format `i` of memory
(debug_command_shell.cc:239, 1318-1326). -/
def list (t : Top) : List (BitVec 64) → Top × List (BitVec 32)
  | [] => (t, [])
  | a :: as => ((list (look t a).1 as).1, (look t a).2 :: (list (look t a).1 as).2)

/-- **C138**, for any number of looks, at the same or at different addresses: each shows the program's own
instruction, and memory is the same in the end. Partial as before. -/
theorem C138_list_partial (as : List (BitVec 64)) (h : After p ops t) (ap : Apart p ops) (st : StoresElsewhere p ops)
    (hl : ∀ a ∈ as, (∃ n, Length (program p ops) a n) ∧ (¬ IsSet ops a → Clear p ops a)) :
    (list t as).2.length = as.length ∧
      (∀ x ∈ as.zip (list t as).2, Fetch.Spec.Holds (program p ops) x.1 x.2) ∧
      (list t as).1.code.mem = t.code.mem := by
  induction as generalizing t ops with
  | nil => exact ⟨rfl, fun x hx => absurd hx List.not_mem_nil, rfl⟩
  | cons a as ih =>
    obtain ⟨⟨n, hn⟩, hc⟩ := hl a (by simp)
    obtain ⟨l, hl1, ha, hset, hpr⟩ := look_after h ap st a fun _ => ⟨n, hn⟩
    have hcl : Apart p (ops ++ l) ∧ StoresElsewhere p (ops ++ l) := by
      cases l with
      | nil => rw [List.append_nil]; exact ⟨ap, st⟩
      | cons o l => exact again (hl1 o (by simp)).1 ap st _ fun q hq => (hl1 q hq).2
    have := ih ha hcl.1 hcl.2 fun b hb => by
      obtain ⟨h1, h2⟩ := hl b (List.mem_cons_of_mem _ hb)
      rw [hpr, hset]
      refine ⟨h1, fun hns => ?_⟩
      unfold Clear
      rw [hpr]
      intro k hk c m hcs
      exact h2 hns k hk c m ((hset c).1 hcs)
    rw [hpr] at this
    refine ⟨by simp [list, this.1], fun x hx => ?_, this.2.2.trans (C138_same_partial h ap st a fun _ => ⟨n, hn⟩).1⟩
    rcases List.mem_cons.1 hx with e | hx
    · rw [e]; exact C138_shows_partial h ap st a n hn hc
    · exact this.2.1 x hx

/-- **C138.** Looking leaves the reason of the last halt and the last watchpoint as they are, where no watchpoint for
stores meets a breakpoint's instruction. -/
theorem C138_quiet_partial (t : Top) (a : BitVec 64) (hk : t.active a = true → ∃ i, t.code.map a = some i ∧
      Watch.triggers t.watch .debugger true a i.size = false) :
    (look t a).1.reason = t.reason ∧ (look t a).1.halted = t.halted ∧ (look t a).1.seen = t.seen := by
  cases hx : t.active a with
  | true =>
    obtain ⟨i, hi, hq⟩ := hk hx
    obtain ⟨_, _, _, _, _, l6, l7, l8⟩ := look_active t a i hx hi
    rw [access_quiet hq] at l6 l7 l8
    exact ⟨l6, l7, l8⟩
  | false =>
    have e : look t a = decoded t a := by unfold look; rw [hx]; rfl
    rw [e]; exact ⟨rfl, rfl, rfl⟩

/-- **C138** fails where a watchpoint for stores meets the instruction of a breakpoint: looking at it counts as a
store of the program, and the reason of the halt is lost. For every such state. -/
theorem C138_watch_violated (t : Top) (a : BitVec 64) (i : Info) (ha : t.active a = true) (hm : t.code.map a = some i)
    (hw : Watch.triggers t.watch .debugger true a i.size = true) :
    (look t a).1.reason = .watchpoint ∧ (look t a).1.halted = true ∧ (look t a).1.seen = a := by
  obtain ⟨_, _, _, _, _, l6, l7, l8⟩ := look_active t a i ha hm
  rw [l6, l7, l8]
  unfold access
  rw [hw]
  exact ⟨rfl, rfl, rfl⟩

/-- **C138** fails where the program has overwritten the instruction of a breakpoint: the debugger is shown the old
instruction, and looking at it writes the breakpoint over the new one. For every program, address of a two-byte
instruction and new first byte. -/
theorem C138_overwritten_violated (p : Memory) (a : BitVec 64) (v : BitVec 8) (hl : Length p a 2) (hv : v ≠ p a)
    (h2 : v ≠ 0x02#8) (t : Top) (h : After p [.set a, .store a v] t) :
    t.code.mem a = v ∧ (look t a).2.toNat % 256 ≠ v.toNat ∧ (look t a).1.code.mem a ≠ v := by
  have hz := (size_spec p a 2).2 hl
  have hb := (p a).isLt
  have key : BitVec.ofNat 8 (readLE p a 4 % 65536 % 65536) = p a := by
    apply BitVec.eq_of_toNat_eq
    rw [BitVec.toNat_ofNat]
    simp only [readLE]
    omega
  have hm : t.code.map a = some ⟨2, readLE p a 4 % 65536⟩ := by
    rw [h.code]; simp [run, step, setBreakpoint, init, patch, setMap, hz.1]
  obtain ⟨l1, l2, _⟩ := look_active t a _ ((h.active a).2 (by simp [IsSet, addr?])) hm
  refine ⟨by rw [h.code]; simp [run, step, setByte], ?_, ?_⟩
  · have h0 := Fetch.loadWord_byte (restore t.code a).1.mem a 0 (by omega)
    simp only [BitVec.ofNat_eq_ofNat, BitVec.add_zero, Nat.pow_zero, Nat.div_one] at h0
    have e : (restore t.code a).1.mem a = p a := by
      unfold restore
      rw [hm]
      simp [writeLE, setByte]
      simpa using key
    rw [l1, ← h0, e]
    exact fun h => hv (BitVec.eq_of_toNat_eq h).symm
  · have e : (look t a).1.code.mem a = 0x02#8 := by
      rw [l2]
      unfold setBreakpoint restore
      simp [hm, patch, writeLE, setByte, eBreak16]
    rw [e]; exact h2.symm

/-! ## Examples -/

/-- A core after the history of C53's example, in which a breakpoint is left at 0x1000, with a watchpoint for stores
on the bytes from `lo` to `hi`. -/
def halted (lo hi : BitVec 64) : Top :=
  { code := run (init prog) history, cache := fun _ => none, active := fun a => a == 0x1000#64
    watch := { stores := [⟨lo, hi⟩] }, reason := .other 1, halted := false, seen := 0#64 }

theorem halted_after (lo hi : BitVec 64) : After prog history (halted lo hi) := by
  refine ⟨rfl, fun a => ?_, fun _ _ h => by cases h⟩
  show (a == 0x1000#64) = true ↔ _
  rw [beq_iff_eq]
  constructor
  · rintro rfl; simp [IsSet, history, addr?]
  · intro h
    have := isSet_mem h
    simp only [history, List.mem_cons, Op.set.injEq, reduceCtorEq, List.not_mem_nil, or_false, false_or] at this
    rcases this with rfl | rfl | rfl
    · rfl
    · simp [IsSet, history, addr?] at h
    · rfl

/-- At the breakpoint `c.nop` is shown; memory goes on to hold `c.ebreak`. -/
example : (look (halted 0x3000#64 0x3003#64) 0x1000#64).2.toNat % 65536 = 1 ∧
    (look (halted 0x3000#64 0x3003#64) 0x1000#64).1.code.mem 0x1001#64 = 0x90#8 ∧
    (look (halted 0x3000#64 0x3003#64) 0x1000#64).1.reason = .other 1 := by decide +kernel

example : Fetch.Spec.Holds (program prog history) 0x1000#64 (look (halted 0x3000#64 0x3003#64) 0x1000#64).2 :=
  C138_shows_partial (halted_after _ _) prog_apart prog_stores 0x1000#64 2
    (by simp [Length, prog, program, history, setByte]) fun h => absurd (by simp [IsSet, history, addr?]) h

/-- With a watchpoint on the second byte of the instruction. -/
example : (look (halted 0x1001#64 0x1001#64) 0x1000#64).1.reason = .watchpoint := by decide +kernel

end Verif.Inspect
