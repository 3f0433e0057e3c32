import Verif.Fetch.Model
import Verif.Hart.Trap
import Verif.Fetch.Spec
/-
C96: the instruction executed is the one memory holds.
-/
namespace Verif.Fetch

theorem loadWord_byte (m : Memory) (a : Addr) (k : Nat) (hk : k < 4) :
    (m (a + BitVec.ofNat 64 k)).toNat = (loadWord m a).toNat / 256 ^ k % 256 := by
  have h0 := (m a).isLt
  have h1 := (m (a + 1)).isLt
  have h2 := (m (a + 2)).isLt
  have h3 := (m (a + 3)).isLt
  have h : (loadWord m a).toNat =
      (m a).toNat + 256 * (m (a + 1)).toNat + 65536 * (m (a + 2)).toNat + 16777216 * (m (a + 3)).toNat := by
    simp only [loadWord, BitVec.toNat_append, Nat.shiftLeft_eq]
    rw [← Nat.shiftLeft_eq, ← Nat.shiftLeft_eq, ← Nat.shiftLeft_eq,
      ← Nat.shiftLeft_add_eq_or_of_lt (by omega), ← Nat.shiftLeft_add_eq_or_of_lt (by omega),
      ← Nat.shiftLeft_add_eq_or_of_lt (by omega)]
    simp only [Nat.shiftLeft_eq]
    omega
  rw [h]
  match k, hk with
  | 0, _ => simp; omega
  | 1, _ => simp; omega
  | 2, _ => simp; omega
  | 3, _ => simp; omega

theorem loadWord_holds (m : Memory) (a : Addr) : Spec.Holds m a (loadWord m a) := by
  intro k hk
  refine loadWord_byte m a k ?_
  unfold Spec.bytes at hk
  split at hk <;> omega

theorem low_bit (a : Addr) : a &&& 1#64 = 0#64 ↔ a.toNat % 2 = 0 := by
  rw [← BitVec.toNat_inj]
  simp only [BitVec.toNat_and, BitVec.toNat_ofNat, Nat.reducePow, Nat.reduceMod, Nat.and_one_is_mod]

theorem decode_even (s : St) (a : Addr) (he : a.toNat % 2 = 0) (hc : s.compressed = true) (hl : a ≤ s.limit) :
    decode s a = .word (loadWord s.mem a) := by
  unfold decode
  rw [if_neg (by simpa using (low_bit a).2 he), if_neg (by simp [hc]), if_neg (BitVec.not_lt.2 hl)]

/-- Some byte a fetch at `b` reads is among the `n` bytes from `a` on. -/
def Touches (a : Addr) (n : Nat) (b : Addr) : Prop := ∃ k, k < 4 ∧ (b + BitVec.ofNat 64 k - a).toNat < n

theorem write_loadWord (m : Memory) (a b : Addr) (bs : List (BitVec 8)) (h : ¬Touches a bs.length b) :
    loadWord (write m a bs) b = loadWord m b := by
  have hk : ∀ k, k < 4 → write m a bs (b + BitVec.ofNat 64 k) = m (b + BitVec.ofNat 64 k) := by
    intro k hk
    have : bs.length ≤ (b + BitVec.ofNat 64 k - a).toNat := Nat.le_of_not_lt fun hlt => h ⟨k, hk, hlt⟩
    show (bs[(b + BitVec.ofNat 64 k - a).toNat]?).getD _ = _
    rw [List.getElem?_eq_none this]
    rfl
  have h0 := hk 0 (by omega)
  have h1 := hk 1 (by omega)
  have h2 := hk 2 (by omega)
  have h3 := hk 3 (by omega)
  rw [BitVec.add_zero] at h0
  show write m a bs (b + BitVec.ofNat 64 3) ++ write m a bs (b + BitVec.ofNat 64 2) ++
    write m a bs (b + BitVec.ofNat 64 1) ++ write m a bs b =
      m (b + BitVec.ofNat 64 3) ++ m (b + BitVec.ofNat 64 2) ++ m (b + BitVec.ofNat 64 1) ++ m b
  rw [h1, h2, h3, h0]

/-- A history whose stores touch no instruction that may be in the cache (`seen`): none
that was fetched before, except that a breakpoint may replace the instruction at its own
address; the limit is not changed after the first fetch. -/
def Quiet (seen : Addr → Prop) : List Event → Prop
  | [] => True
  | .fetch a :: es => Quiet (fun b => b = a ∨ seen b) es
  | .store a bs :: es => (∀ b, seen b → ¬Touches a bs.length b) ∧ Quiet seen es
  | .patch a bs :: es => (∀ b, seen b → b ≠ a → ¬Touches a bs.length b) ∧ Quiet seen es
  | .fenceI :: es => Quiet seen es
  | .evict a :: es => Quiet (fun b => b ≠ a ∧ seen b) es
  | .setLimit _ :: es => (∀ b, ¬seen b) ∧ Quiet seen es

/-- What the cache holds is what decoding would yield now, and was fetched. -/
def Fresh (seen : Addr → Prop) (s : St) : Prop := ∀ a f, s.cache a = some f → f = decode s a ∧ seen a

theorem get_fresh {seen : Addr → Prop} {s : St} (h : Fresh seen s) (a : Addr) : get s a = decode s a := by
  unfold get
  split
  · next f hf => exact (h a f hf).1
  · rfl

theorem decode_congr (s t : St) (a : Addr) (hl : t.limit = s.limit) (hc : t.compressed = s.compressed)
    (hm : loadWord t.mem a = loadWord s.mem a) : decode t a = decode s a := by
  unfold decode
  rw [hl, hc, hm]

theorem fresh_run (es : List Event) : ∀ (seen : Addr → Prop) (s : St), Fresh seen s → Quiet seen es →
    ∃ seen', Fresh seen' (run s es) := by
  induction es with
  | nil => exact fun seen s h _ => ⟨seen, h⟩
  | cons e es ih =>
    intro seen s h hq
    show ∃ seen', Fresh seen' (run (step s e) es)
    cases e with
    | fetch a =>
      refine ih _ _ ?_ hq
      intro b f hb
      simp only [step, update] at hb
      split at hb
      · next hba =>
        subst hba
        cases hb
        exact ⟨(get_fresh h b).trans (decode_congr _ _ _ rfl rfl rfl), Or.inl rfl⟩
      · exact ⟨(h b f hb).1, Or.inr (h b f hb).2⟩
    | store a bs =>
      refine ih _ _ ?_ hq.2
      intro b f hb
      refine ⟨(h b f hb).1.trans (decode_congr (step s (.store a bs)) s b rfl rfl ?_), (h b f hb).2⟩
      exact (write_loadWord s.mem a b bs (hq.1 b (h b f hb).2)).symm
    | patch a bs =>
      refine ih _ _ ?_ hq.2
      intro b f hb
      simp only [step, update] at hb
      split at hb
      · cases hb
      · next hba =>
        refine ⟨(h b f hb).1.trans (decode_congr (step s (.patch a bs)) s b rfl rfl ?_), (h b f hb).2⟩
        exact (write_loadWord s.mem a b bs (hq.1 b (h b f hb).2 hba)).symm
    | fenceI => exact ih _ _ h hq
    | evict a =>
      refine ih _ _ ?_ hq
      intro b f hb
      simp only [step, update] at hb
      split at hb
      · cases hb
      · next hba => exact ⟨(h b f hb).1, hba, (h b f hb).2⟩
    | setLimit l =>
      refine ih _ _ ?_ hq.2
      intro b f hb
      exact absurd (h b f hb).2 (hq.1 b)

/-- C96 (part): after every history whose stores touch no instruction fetched before, the
instruction found at an even address up to the limit is the one memory holds. -/
theorem C96_fetch_partial (s : St) (hs : ∀ a, s.cache a = none) (es : List Event) (hq : Quiet (fun _ => False) es)
    (a : Addr) (he : a.toNat % 2 = 0) (hc : (run s es).compressed = true) (hl : a ≤ (run s es).limit) :
    ∃ w, get (run s es) a = .word w ∧ Spec.Holds (run s es).mem a w := by
  obtain ⟨seen, h⟩ := fresh_run es _ s (fun a f hf => by rw [hs a] at hf; cases hf) hq
  exact ⟨_, (get_fresh h a).trans (decode_even _ a he hc hl), loadWord_holds _ a⟩

/-- C96 (exceptions, machine mode): an odd address raises "instruction address misaligned"
(0), an even one above the limit "instruction access fault" (1), with the address as trap
value and, rounded down to an even one, as the epc. -/
theorem C96_exception {w : Nat} (h : Hart.Hart w) (hr : Hart.Spec.Reachable h) (hw : 32 ≤ w) (s : St) (a : Addr)
    (hn : s.cache a = none) (hc : s.compressed = true) (hx : a.toNat % 2 = 1 ∨ s.limit < a)
    (hd0 : Hart.Spec.trapMode h false 0 = Hart.M) (hd1 : Hart.Spec.trapMode h false 1 = Hart.M) :
    ∃ t, raise h a false (get s a) = some t ∧ t.mode = Hart.M ∧ t.branch = true ∧ t.mtval = a.setWidth w ∧
      t.mcause = (if a.toNat % 2 = 1 then 0 else 1) ∧
      t.mepc = (BitVec.ofNat 64 (a.toNat / 2 * 2)).setWidth w := by
  have hg : get s a = decode s a := by unfold get; rw [hn]
  rw [hg]
  unfold decode
  by_cases ho : a.toNat % 2 = 1
  · have hb : a &&& 1#64 ≠ 0#64 := fun hb => by have := (low_bit a).1 hb; omega
    rw [if_pos hb]
    obtain ⟨h1, h2, h3, h4, h5, -⟩ := Hart.C12_trap_machine h hr hw false a 0 (a ^^^ 1#64) (by decide) hd0
    refine ⟨_, rfl, h4, h5, h2, ?_, ?_⟩
    · rw [if_pos ho]; exact h3
    · rw [h1]
      refine congrArg _ (BitVec.eq_of_toNat_eq ?_)
      rw [BitVec.toNat_xor, BitVec.toNat_ofNat]
      have : a.toNat ^^^ 1 = a.toNat / 2 * 2 := by
        apply Nat.eq_of_testBit_eq
        intro i
        rw [Nat.testBit_xor]
        have h2i : a.toNat / 2 * 2 = (a.toNat / 2) <<< 1 := by rw [Nat.shiftLeft_eq]
        rw [h2i, Nat.testBit_shiftLeft]
        cases i with
        | zero => simp [Nat.testBit_zero, ho]
        | succ i => simp [Nat.testBit_succ]
      have hlt := a.isLt
      show a.toNat ^^^ (1 % 2 ^ 64) = _
      rw [Nat.mod_eq_of_lt (by decide : 1 < 2 ^ 64), this, BitVec.toNat_ofNat, Nat.mod_eq_of_lt (by omega)]
  · have hl : s.limit < a := hx.resolve_left ho
    have hb : a &&& 1#64 = 0#64 := (low_bit a).2 (by omega)
    rw [if_neg (by simp [hb]), if_neg (by simp [hc]), if_pos hl]
    obtain ⟨h1, h2, h3, h4, h5, -⟩ := Hart.C12_trap_machine h hr hw false a 1 a (by decide) hd1
    refine ⟨_, rfl, h4, h5, h2, ?_, ?_⟩
    · rw [if_neg ho]; exact h3
    · rw [h1]
      refine congrArg _ (BitVec.eq_of_toNat_eq ?_)
      have hlt := a.isLt
      rw [BitVec.toNat_ofNat, Nat.mod_eq_of_lt (by omega)]
      omega

theorem low_two (a : Addr) : a &&& 3#64 = 0#64 ↔ a.toNat % 4 = 0 := by
  rw [← BitVec.toNat_inj, BitVec.toNat_and]
  show a.toNat &&& 2 ^ 2 - 1 = 0 ↔ _
  rw [Nat.and_two_pow_sub_one_eq_mod]

/-- C96 (exceptions without compressed instructions, machine mode): an even address that is not a
multiple of four raises "instruction address misaligned" (0), with the address as trap value and, rounded
down to a multiple of four, as the epc. -/
theorem C96_exception_wide {w : Nat} (h : Hart.Hart w) (hr : Hart.Spec.Reachable h) (hw : 32 ≤ w) (s : St) (a : Addr)
    (hn : s.cache a = none) (hc : s.compressed = false) (hx : a.toNat % 4 = 2)
    (hd0 : Hart.Spec.trapMode h false 0 = Hart.M) :
    ∃ t, raise h a false (get s a) = some t ∧ t.mode = Hart.M ∧ t.branch = true ∧ t.mtval = a.setWidth w ∧
      t.mcause = 0 ∧ t.mepc = (BitVec.ofNat 64 (a.toNat / 4 * 4)).setWidth w := by
  have hg : get s a = decode s a := by unfold get; rw [hn]
  have hb : a &&& 1#64 = 0#64 := (low_bit a).2 (by omega)
  have h4 : a &&& 3#64 ≠ 0#64 := fun hb => by have := (low_two a).1 hb; omega
  rw [hg]
  unfold decode
  rw [if_neg (by simp [hb]), if_pos ⟨hc, h4⟩]
  obtain ⟨h1, h2, h3, h4, h5, -⟩ := Hart.C12_trap_machine h hr hw false a 0 (a &&& ~~~3#64) (by decide) hd0
  refine ⟨_, rfl, h4, h5, h2, h3, ?_⟩
  rw [h1]
  refine congrArg _ (BitVec.eq_of_getLsbD_eq fun i hi => ?_)
  have e : a.toNat / 4 * 4 = (a.toNat >>> 2) <<< 2 := by rw [Nat.shiftLeft_eq, Nat.shiftRight_eq_div_pow]
  rw [e, BitVec.getLsbD_ofNat, Nat.testBit_shiftLeft, Nat.testBit_shiftRight, BitVec.getLsbD_and, BitVec.getLsbD_not]
  have e3 : (3#64).getLsbD i = decide (i < 2) := by
    rw [BitVec.getLsbD_ofNat, show 3 = 2 ^ 2 - 1 from rfl, Nat.testBit_two_pow_sub_one]
    simp [hi]
  rw [e3]
  by_cases hi2 : i < 2
  · have : ¬ 2 ≤ i := by omega
    simp [hi2, this]
  · have h2i : 2 ≤ i := by omega
    rw [show 2 + (i - 2) = i by omega]
    simp [hi, hi2, h2i, BitVec.getLsbD]

/-- Such an address: 0x1002 on a hart with no compressed instructions. -/
example : (raise (Hart.Hart.init 64 true) 0x1002#64 false
    (get { mem := fun _ => 0#8, limit := 0xffff#64, compressed := false, cache := fun _ => none } 0x1002#64)).map
      (fun t => (t.mepc.toNat, t.mtval.toNat)) = some (0x1000, 0x1002) := by
  decide

/-- The bytes of a word, least significant first. -/
def leBytes (v : BitVec 32) : List (BitVec 8) :=
  [v.extractLsb' 0 8, v.extractLsb' 8 8, v.extractLsb' 16 8, v.extractLsb' 24 8]

theorem holds_half {m : Memory} {a : Addr} {w v : BitVec 32} (hw : Spec.Holds m a w) (hv : Spec.Holds m a v) :
    w.toNat % 65536 = v.toNat % 65536 := by
  have hb : ∀ u : BitVec 32, 2 ≤ Spec.bytes u := fun u => by unfold Spec.bytes; split <;> omega
  have w0 := hw 0 (by have := hb w; omega)
  have w1 := hw 1 (by have := hb w; omega)
  have v0 := hv 0 (by have := hb v; omega)
  have v1 := hv 1 (by have := hb v; omega)
  simp only [Nat.pow_zero, Nat.pow_one, Nat.div_one] at w0 w1 v0 v1
  omega

/-- C96, violated: fence.i does nothing.  Whatever an address holds when it is executed
first, a new instruction stored there is not executed, not even after fence.i. -/
theorem C96_fencei_violated (s : St) (a : Addr) (he : a.toNat % 2 = 0) (hc : s.compressed = true)
    (hl : a ≤ s.limit) (hn : s.cache a = none) (v : BitVec 32)
    (hv : v.toNat % 65536 ≠ (loadWord s.mem a).toNat % 65536) :
    let t := run s [.fetch a, .store a (leBytes v), .fenceI]
    Spec.Holds t.mem a v ∧ get t a = .word (loadWord s.mem a) ∧ ¬Spec.Holds t.mem a (loadWord s.mem a) := by
  have h1 : Spec.Holds (write s.mem a (leBytes v)) a v := by
    intro k hk
    have hk4 : k < 4 := by unfold Spec.bytes at hk; split at hk <;> omega
    have hi : (a + BitVec.ofNat 64 k - a).toNat = k := by
      have : a + BitVec.ofNat 64 k - a = BitVec.ofNat 64 k := by
        rw [BitVec.add_comm, BitVec.add_sub_cancel]
      rw [this, BitVec.toNat_ofNat]
      omega
    unfold write
    rw [hi]
    have hlt := v.isLt
    match k, hk4 with
    | 0, _ => simp [leBytes, BitVec.extractLsb'_toNat]
    | 1, _ => simp [leBytes, BitVec.extractLsb'_toNat, Nat.shiftRight_eq_div_pow]
    | 2, _ => simp [leBytes, BitVec.extractLsb'_toNat, Nat.shiftRight_eq_div_pow]
    | 3, _ => simp [leBytes, BitVec.extractLsb'_toNat, Nat.shiftRight_eq_div_pow]
  refine ⟨h1, ?_, fun hh => hv (holds_half h1 hh)⟩
  show get { s with mem := _, cache := update s.cache a (some (get s a)) } a = _
  have hg : get s a = .word (loadWord s.mem a) := by
    unfold get; rw [hn]; exact decode_even s a he hc hl
  unfold get
  simp only [update, if_pos]
  exact hg

/-- C96, violated: a breakpoint in the second half of an instruction that was executed
before is not seen when that instruction is executed again, nor is the restored half. -/
theorem C96_patch_violated (s : St) (a : Addr) (he : a.toNat % 2 = 0) (hc : s.compressed = true)
    (hl : a ≤ s.limit) (hn : s.cache a = none) (h3 : (loadWord s.mem a).toNat % 4 = 3) (b0 b1 : BitVec 8)
    (hb : b0 ≠ s.mem (a + 2)) :
    let t := run s [.fetch a, .patch (a + 2) [b0, b1]]
    get t a = .word (loadWord s.mem a) ∧ ¬Spec.Holds t.mem a (loadWord s.mem a) := by
  have hg : get s a = .word (loadWord s.mem a) := by
    unfold get; rw [hn]; exact decode_even s a he hc hl
  have hne : a ≠ a + 2 := by
    intro h
    have := congrArg BitVec.toNat h
    rw [BitVec.toNat_add] at this
    have hlt := a.isLt
    have h2 : (2 : Addr).toNat = 2 := rfl
    omega
  constructor
  · show get { s with mem := _, cache := update (update s.cache a (some (get s a))) (a + 2) none } a = _
    unfold get
    simp only [update, if_neg hne, if_pos]
    exact hg
  · intro hh
    have := hh 2 (by unfold Spec.bytes; rw [if_pos h3]; omega)
    rw [← loadWord_byte s.mem a 2 (by omega)] at this
    replace this := BitVec.eq_of_toNat_eq this
    apply hb
    rw [show a + 2 = a + BitVec.ofNat 64 2 from rfl, ← this]
    show b0 = write s.mem (a + 2) [b0, b1] (a + 2)
    simp [write]

/-- C96, violated: the limit is compared with the first byte only; of a four-byte
instruction at the limit the rest is fetched from beyond. -/
theorem C96_limit_violated (s : St) (a : Addr) (he : a.toNat % 2 = 0) (hc : s.compressed = true)
    (hn : s.cache a = none) (hl : a ≤ s.limit) (hb : s.limit.toNat < a.toNat + 3)
    (h3 : (loadWord s.mem a).toNat % 4 = 3) :
    get s a = .word (loadWord s.mem a) ∧ ¬Spec.Within s.limit a (loadWord s.mem a) := by
  constructor
  · unfold get; rw [hn]; exact decode_even s a he hc hl
  · unfold Spec.Within Spec.bytes
    rw [if_pos h3]
    omega

/-- C96, violated: lowering the limit does not affect what was executed before. -/
theorem C96_lowered_violated (s : St) (a l : Addr) (he : a.toNat % 2 = 0) (hc : s.compressed = true)
    (hn : s.cache a = none) (hl : a ≤ s.limit) (hlow : l < a) :
    let t := run s [.fetch a, .setLimit l]
    t.limit < a ∧ get t a = .word (loadWord s.mem a) := by
  refine ⟨hlow, ?_⟩
  have hg : get s a = .word (loadWord s.mem a) := by
    unfold get; rw [hn]; exact decode_even s a he hc hl
  show get { s with limit := l, cache := update s.cache a (some (get s a)) } a = _
  unfold get
  simp only [update, if_pos]
  exact hg

/-! ### The hypotheses are met -/

/-- A program: `lui x0, 0` at 0, `c.nop` at 4. -/
def demo : St :=
  { mem := fun a => if a = 0 then 0x37 else if a = 4 then 1 else 0, limit := 0xffff, compressed := true,
    cache := fun _ => none }

/-- A store to data and a breakpoint on an executed instruction are quiet. -/
example : Quiet (fun _ => False)
    [.fetch 0, .store 0x100 [1, 2], .patch 0 [0x73, 0, 0x10, 0], .fetch 0, .fetch 4, .fenceI] := by
  refine ⟨?_, ?_, trivial⟩
  · rintro b (rfl | h)
    · rintro ⟨k, hk, h⟩
      match k, hk with
      | 0, _ => revert h; decide
      | 1, _ => revert h; decide
      | 2, _ => revert h; decide
      | 3, _ => revert h; decide
    · exact h.elim
  · rintro b (rfl | h) hb
    · exact absurd rfl hb
    · exact h.elim

example : get (run demo [.fetch 0, .store 0 [0x93, 0, 0, 0], .fenceI]) 0 = .word 0x37 := by decide
example : get (run demo [.fetch 0, .patch 0 [0x73, 0, 0x10, 0]]) 0 = .word 0x100073 := by decide
example : (loadWord demo.mem 0).toNat % 4 = 3 ∧ get demo 5 = .misaligned 4 ∧ get demo 0x10000 = .fault := by decide
example : Hart.Spec.trapMode (Hart.Hart.init 64 true) false 0 = Hart.M ∧
    Hart.Spec.trapMode (Hart.Hart.init 64 true) false 1 = Hart.M := by decide

end Verif.Fetch
