import Verif.Htif.Model
import Verif.Htif.Spec
import Verif.Semihost.Props
/-
C94: system calls through the host-target interface.
-/
namespace Verif.Htif

open Semihost (Byte Memory loadBytes storeBytes leBytes word toInt32 upd store_at store_off
  toInt32_small)

variable {host : Host} {stale : Nat → Byte} {a : Addresses} {s : St} {address : BitVec 64}
  {size : Nat}

/-! ### Which stores are calls -/

theorem not_covering (hs : 0 < size) (hwrap : address.toNat + size ≤ 2 ^ 64) :
    (a.tohostReady < address ∨ address + BitVec.ofNat 64 size - 1 < a.tohostReady) ↔
      ¬ Spec.Covers address size a.tohostReady := by
  unfold Spec.Covers
  have e : (address + BitVec.ofNat 64 size - 1).toNat = address.toNat + size - 1 := by
    have h1 : (1 : BitVec 64).toNat = 1 := rfl
    rw [BitVec.toNat_sub, BitVec.toNat_add, BitVec.toNat_ofNat, h1]
    have := address.isLt
    omega
  simp only [BitVec.lt_def, e]
  omega

/-- C94 (what is ignored): a store that does not cover the ready byte, that leaves it
different from one, or that comes with a `tohost` word whose device or command byte is not
zero, changes nothing. -/
theorem C94_ignored (hs : 0 < size) (hwrap : address.toNat + size ≤ 2 ^ 64)
    (h : ¬ Spec.Covers address size a.tohostReady ∨ s.mem a.tohostReady ≠ 1 ∨
      2 ^ 48 ≤ (word 64 s.mem a.tohost 0).toNat) :
    storeEvent host stale a s address size = some s := by
  unfold storeEvent
  by_cases h1 : Spec.Covers address size a.tohostReady
  · rw [if_neg (fun q => (not_covering (a := a) hs hwrap).mp q h1)]
    by_cases h2 : s.mem a.tohostReady = 1
    · rw [if_neg (not_not_intro h2)]
      have h3 : 2 ^ 48 ≤ (word 64 s.mem a.tohost 0).toNat := by
        rcases h with h | h | h
        · exact absurd h1 h
        · exact absurd h2 h
        · exact h
      dsimp only
      generalize word 64 s.mem a.tohost 0 = p at h3 ⊢
      rw [if_pos]
      by_cases hd : (p >>> 56).setWidth 8 = 0
      · right
        intro hc
        have e1 := congrArg BitVec.toNat hd
        have e2 := congrArg BitVec.toNat hc
        have hff : (0xff : BitVec 64).toNat = 2 ^ 8 - 1 := rfl
        simp only [BitVec.toNat_setWidth, BitVec.toNat_ushiftRight, BitVec.toNat_and, hff,
          Nat.and_two_pow_sub_one_eq_mod, Nat.shiftRight_eq_div_pow] at e1 e2
        have h0 : (0 : BitVec 8).toNat = 0 := rfl
        have := p.isLt
        rw [h0] at e1 e2
        omega
      · exact Or.inl hd
    · rw [if_pos h2]
  · rw [if_pos ((not_covering (a := a) hs hwrap).mpr h1)]

/-- A call is made: the store covers the ready byte, which holds one, and the `tohost` word is
`payload`, with zero device and command. -/
def Made (a : Addresses) (s : St) (address : BitVec 64) (size : Nat) (payload : BitVec 64) :
    Prop :=
  0 < size ∧ address.toNat + size ≤ 2 ^ 64 ∧ Spec.Covers address size a.tohostReady ∧
    s.mem a.tohostReady = 1 ∧ word 64 s.mem a.tohost 0 = payload ∧ payload.toNat < 2 ^ 48

theorem made_event {payload : BitVec 64} (h : Made a s address size payload) :
    storeEvent host stale a s address size =
      if payload.toNat % 2 = 1 then
        some (if s.haltCallback then { s with halts := s.halts + 1 } else s)
      else
        match syscall host stale (fun k => word 64 s.mem payload k) s with
        | .ret v s' => some (respond a payload v s')
        | .unhandled n =>
          if s.errorCallback then some { s with errors := s.errors ++ [n] } else none
        | .ub => none := by
  obtain ⟨h1, h2, h3, h4, h5, h6⟩ := h
  unfold storeEvent
  rw [if_neg (fun q => (not_covering (a := a) h1 h2).mp q h3),
    if_neg (not_not_intro h4)]
  dsimp only
  rw [h5, if_neg]
  · have e : (payload &&& 1 ≠ 0) ↔ payload.toNat % 2 = 1 := by
      have hone : (1 : BitVec 64).toNat = 2 ^ 1 - 1 := rfl
      constructor
      · intro q
        have : (payload &&& 1).toNat ≠ 0 := fun z => q (BitVec.eq_of_toNat_eq z)
        rw [BitVec.toNat_and, hone, Nat.and_two_pow_sub_one_eq_mod] at this
        omega
      · intro q z
        have := congrArg BitVec.toNat z
        rw [BitVec.toNat_and, hone, Nat.and_two_pow_sub_one_eq_mod] at this
        have h0 : (0 : BitVec 64).toNat = 0 := rfl
        omega
    by_cases hq : payload.toNat % 2 = 1
    · rw [if_pos (e.mpr hq), if_pos hq]
    · rw [if_neg (fun q => hq (e.mp q)), if_neg hq]
      generalize syscall host stale (fun k => word 64 s.mem payload k) s = r
      cases r <;> rfl
  · intro q
    have hff : (0xff : BitVec 64).toNat = 2 ^ 8 - 1 := rfl
    rcases q with q | q <;> apply q <;> apply BitVec.eq_of_toNat_eq
    · rw [BitVec.toNat_setWidth, BitVec.toNat_ushiftRight, Nat.shiftRight_eq_div_pow]
      show _ = 0
      omega
    · rw [BitVec.toNat_setWidth, BitVec.toNat_and, BitVec.toNat_ushiftRight, hff,
        Nat.and_two_pow_sub_one_eq_mod, Nat.shiftRight_eq_div_pow]
      show _ = 0
      omega

/-- C94 (end of run): an odd `tohost` word runs the halt callback once and does nothing
else. -/
theorem C94_halt {payload : BitVec 64} (h : Made a s address size payload)
    (hodd : payload.toNat % 2 = 1) (hcb : s.haltCallback = true) :
    storeEvent host stale a s address size = some { s with halts := s.halts + 1 } := by
  rw [made_event h, if_pos hodd, hcb, if_pos rfl]

/-! ### The response -/

/-- A system call has been made and has returned `v`: what the program sees. The return value
is in the first double word of the block, the response-ready byte is one, and no other byte
differs from `mem`. -/
structure Answered (a : Addresses) (payload v : BitVec 64) (mem mem' : Memory) : Prop where
  ready : mem' a.fromhostReady = 1
  value : ∀ k < 8, payload + BitVec.ofNat 64 k ≠ a.fromhostReady →
    mem' (payload + BitVec.ofNat 64 k) = BitVec.ofNat 8 (v.toNat / 256 ^ k)
  frame : ∀ x, x ≠ a.fromhostReady → Spec.Outside x payload 8 → mem' x = mem x

theorem leBytes_length : ∀ n v, (leBytes n v).length = n := by
  intro n
  induction n with
  | zero => intro v; rfl
  | succ n ih => intro v; simp [leBytes, ih]

theorem leBytes_get : ∀ n v k (hk : k < (leBytes n v).length),
    (leBytes n v)[k] = BitVec.ofNat 8 (v / 256 ^ k) := by
  intro n
  induction n with
  | zero => intro v k hk; exact absurd hk (by simp [leBytes])
  | succ n ih =>
    intro v k hk
    cases k with
    | zero => simp [leBytes]
    | succ k =>
      simp only [leBytes, List.getElem_cons_succ]
      rw [ih, Nat.pow_succ, Nat.mul_comm, Nat.div_div_eq_div_mul]

theorem store_one (mem : Memory) (b x : BitVec 64) (v : Byte) :
    storeBytes mem b [v] x = if x = b then v else mem x := by
  by_cases h : x = b
  · subst h
    have := store_at mem x [v] 0 (by simp) (by simp)
    rw [if_pos rfl]
    simpa using this
  · rw [if_neg h]
    apply store_off
    rw [List.length_singleton]
    have : (x - b).toNat ≠ 0 := by
      intro z
      apply h
      have z' : x - b = 0 := BitVec.eq_of_toNat_eq z
      grind
    omega

theorem respond_answered (payload v : BitVec 64) :
    Answered a payload v s.mem (respond a payload v s).mem := by
  constructor
  · show storeBytes _ _ _ _ = _
    rw [store_one, if_pos rfl]
  · intro k hk hne
    show storeBytes _ _ _ _ = _
    rw [store_one, if_neg hne, store_at _ _ _ _ (by rw [leBytes_length]; exact hk)
      (by rw [leBytes_length]; decide), leBytes_get]
  · intro x hx ho
    show storeBytes _ _ _ _ = _
    rw [store_one, if_neg hx, store_off _ _ _ _ (by rw [leBytes_length]; exact ho)]

/-- What a made call whose system call returns leaves behind. -/
theorem made_ret {payload : BitVec 64} (h : Made a s address size payload)
    (heven : payload.toNat % 2 = 0) (v : BitVec 64) (s' : St)
    (hs : syscall host stale (fun k => word 64 s.mem payload k) s = .ret v s') :
    storeEvent host stale a s address size = some (respond a payload v s') := by
  rw [made_event h, if_neg (by omega), hs]

/-- The block at `payload` holds system call `n` with the arguments `args`. -/
def Args (s : St) (payload : BitVec 64) (n : Nat) (args : List Nat) : Prop :=
  (word 64 s.mem payload 0).toNat = n ∧
    ∀ k, (h : k < args.length) → (word 64 s.mem payload (k + 1)).toNat = args[k]

theorem syscall_eq (p : Nat → BitVec 64) (s : St) (n : Nat) (h : (p 0).toNat = n) :
    syscall host stale p s = switch host stale n p s := by
  unfold syscall
  rw [h]

/-- C94 (write): the host is asked to write exactly the bytes of the program's buffer to the
host descriptor of the program's descriptor, and the host's return value is answered; memory
is otherwise as before. -/
theorem C94_write {payload : BitVec 64} (h : Made a s address size payload)
    (heven : payload.toNat % 2 = 0) (fd buf len : Nat) (hfd : fd < 2 ^ 31) (hl : len < 2 ^ 31)
    (hb : Args s payload 64 [fd, buf, len]) (hfdm : Int) (hm : s.fdMap fd = some hfdm)
    (c : Call) (hc : c = .write hfdm (loadBytes s.mem (BitVec.ofNat 64 buf) len)) :
    ∃ s' : St, storeEvent host stale a s address size = some s' ∧
      Answered a payload (BitVec.ofInt 64 (host s.calls c).ret) s.mem s'.mem ∧
      s'.calls = s.calls ++ [c] ∧ s'.fdMap = s.fdMap ∧ s'.halts = s.halts := by
  obtain ⟨b0, bk⟩ := hb
  have b1 : (word 64 s.mem payload 1).toNat = fd := bk 0 (by simp)
  have b2 : (word 64 s.mem payload 2).toNat = buf := bk 1 (by simp)
  have b3 : (word 64 s.mem payload 3).toNat = len := bk 2 (by simp)
  have hbuf : word 64 s.mem payload 2 = BitVec.ofNat 64 buf := by
    apply BitVec.eq_of_toNat_eq
    rw [BitVec.toNat_ofNat, ← b2, Nat.mod_eq_of_lt (word 64 s.mem payload 2).isLt]
  have hsys : syscall host stale (fun k => word 64 s.mem payload k) s =
      .ret (BitVec.ofInt 64 (host s.calls c).ret) (s.did c) := by
    rw [syscall_eq _ _ _ b0]
    show sysWrite host (fun k => word 64 s.mem payload k) s = _
    unfold sysWrite
    have al : allocatable (word 64 s.mem payload 3) = true := by
      unfold allocatable; rw [b3]; exact decide_eq_true hl
    have hf : fdOf s (word 64 s.mem payload 1) = hfdm := by
      unfold fdOf; rw [toInt32_small _ fd b1 hfd, hm]; rfl
    dsimp only
    rw [al, if_neg (by decide), hf, b3, hbuf, ← hc]
  exact ⟨_, made_ret h heven _ _ hsys, respond_answered (s := s.did c) payload _, rfl, rfl, rfl⟩

/-- C94 (positioned write): the same, with the offset passed to the host. -/
theorem C94_pwrite {payload : BitVec 64} (h : Made a s address size payload)
    (heven : payload.toNat % 2 = 0) (fd buf len off : Nat) (hfd : fd < 2 ^ 31)
    (hl : len < 2 ^ 31) (hoff : off < 2 ^ 63)
    (hb : Args s payload 68 [fd, buf, len, off]) (hfdm : Int) (hm : s.fdMap fd = some hfdm)
    (c : Call) (hc : c = .pwrite hfdm (loadBytes s.mem (BitVec.ofNat 64 buf) len) off) :
    ∃ s' : St, storeEvent host stale a s address size = some s' ∧
      Answered a payload (BitVec.ofInt 64 (host s.calls c).ret) s.mem s'.mem ∧
      s'.calls = s.calls ++ [c] ∧ s'.fdMap = s.fdMap ∧ s'.halts = s.halts := by
  obtain ⟨b0, bk⟩ := hb
  have b1 : (word 64 s.mem payload 1).toNat = fd := bk 0 (by simp)
  have b2 : (word 64 s.mem payload 2).toNat = buf := bk 1 (by simp)
  have b3 : (word 64 s.mem payload 3).toNat = len := bk 2 (by simp)
  have b4 : (word 64 s.mem payload 4).toNat = off := bk 3 (by simp)
  have hbuf : word 64 s.mem payload 2 = BitVec.ofNat 64 buf := by
    apply BitVec.eq_of_toNat_eq
    rw [BitVec.toNat_ofNat, ← b2, Nat.mod_eq_of_lt (word 64 s.mem payload 2).isLt]
  have hsys : syscall host stale (fun k => word 64 s.mem payload k) s =
      .ret (BitVec.ofInt 64 (host s.calls c).ret) (s.did c) := by
    rw [syscall_eq _ _ _ b0]
    show sysPwrite host (fun k => word 64 s.mem payload k) s = _
    unfold sysPwrite
    have al : allocatable (word 64 s.mem payload 3) = true := by
      unfold allocatable; rw [b3]; exact decide_eq_true hl
    have hf : fdOf s (word 64 s.mem payload 1) = hfdm := by
      unfold fdOf; rw [toInt32_small _ fd b1 hfd, hm]; rfl
    dsimp only
    rw [al, if_neg (by decide), hf, b3, hbuf,
      BitVec.toInt_eq_toNat_of_lt (by rw [b4]; omega), b4, ← hc]
  exact ⟨_, made_ret h heven _ _ hsys, respond_answered (s := s.did c) payload _, rfl, rfl, rfl⟩

/-- C94 (seek): host descriptor, offset and origin are passed on, and the host's return value
is answered. -/
theorem C94_lseek {payload : BitVec 64} (h : Made a s address size payload)
    (heven : payload.toNat % 2 = 0) (fd off wh : Nat) (hfd : fd < 2 ^ 31)
    (hoff : off < 2 ^ 64) (hwh : wh < 2 ^ 31)
    (hb : Args s payload 62 [fd, off, wh]) (hfdm : Int) (hm : s.fdMap fd = some hfdm)
    (c : Call) (hc : c = .lseek hfdm (BitVec.ofNat 64 off).toInt wh) :
    ∃ s' : St, storeEvent host stale a s address size = some s' ∧
      Answered a payload (BitVec.ofInt 64 (host s.calls c).ret) s.mem s'.mem ∧
      s'.calls = s.calls ++ [c] ∧ s'.fdMap = s.fdMap ∧ s'.halts = s.halts := by
  obtain ⟨b0, bk⟩ := hb
  have b1 : (word 64 s.mem payload 1).toNat = fd := bk 0 (by simp)
  have b2 : (word 64 s.mem payload 2).toNat = off := bk 1 (by simp)
  have b3 : (word 64 s.mem payload 3).toNat = wh := bk 2 (by simp)
  have ho : word 64 s.mem payload 2 = BitVec.ofNat 64 off := by
    apply BitVec.eq_of_toNat_eq
    rw [BitVec.toNat_ofNat, ← b2, Nat.mod_eq_of_lt (word 64 s.mem payload 2).isLt]
  have hsys : syscall host stale (fun k => word 64 s.mem payload k) s =
      .ret (BitVec.ofInt 64 (host s.calls c).ret) (s.did c) := by
    rw [syscall_eq _ _ _ b0]
    show sysLseek host (fun k => word 64 s.mem payload k) s = _
    unfold sysLseek
    have hf : fdOf s (word 64 s.mem payload 1) = hfdm := by
      unfold fdOf; rw [toInt32_small _ fd b1 hfd, hm]; rfl
    dsimp only
    rw [hf, ho, toInt32_small _ wh b3 hwh, ← hc]
  exact ⟨_, made_ret h heven _ _ hsys, respond_answered (s := s.did c) payload _, rfl, rfl, rfl⟩

theorem res_small (r : Int) (h1 : -1 ≤ r) (h2 : r < 2 ^ 31) : (BitVec.ofInt 32 r).toInt = r := by
  rw [BitVec.toInt_ofInt]
  simp only [Int.bmod_def]
  omega

/-- What a read leaves in memory, apart from the answer: the bytes the host delivered, and
nothing beyond them. -/
theorem deliver_right (r : Resp) (dst : BitVec 64) (s : St) (len : Nat) (hl : len < 2 ^ 31)
    (h1 : r.data.length = r.ret.toNat) (h2 : r.ret ≤ len) (h3 : -1 ≤ r.ret) :
    (deliver stale r dst s).1 = BitVec.ofInt 64 r.ret ∧
    (deliver stale r dst s).2 = { s with mem := storeBytes s.mem dst r.data } := by
  unfold deliver
  dsimp only
  rw [res_small r.ret h3 (by omega)]
  refine ⟨rfl, ?_⟩
  have hd : (List.range r.ret.toNat).map (fun k => r.data.getD k (stale k)) = r.data := by
    apply List.ext_getElem
    · simp [h1]
    · intro k hk1 hk2
      simp [hk2]
  rw [hd]
  by_cases hp : 0 < r.ret
  · rw [if_pos hp]
  · rw [if_neg hp]
    have : r.data = [] := List.length_eq_zero_iff.mp (by rw [h1]; omega)
    rw [this]
    have e : storeBytes s.mem dst [] = s.mem := by
      funext x; exact store_off _ _ _ _ (by simp)
    rw [e]

/-- C94 (read): the host is asked for that many bytes from the descriptor; exactly the bytes
it delivers are stored at the start of the buffer (the rest of a buffer only partly filled is
as before), and the host's return value is answered. -/
theorem C94_read {payload : BitVec 64} (hr : Spec.ReadsRight host)
    (h : Made a s address size payload)
    (heven : payload.toNat % 2 = 0) (fd buf len : Nat) (hfd : fd < 2 ^ 31) (hl : len < 2 ^ 31)
    (hb : Args s payload 63 [fd, buf, len]) (hfdm : Int) (hm : s.fdMap fd = some hfdm)
    (c : Call) (hc : c = .read hfdm len) :
    ∃ s' : St, storeEvent host stale a s address size = some s' ∧
      Answered a payload (BitVec.ofInt 64 (host s.calls c).ret)
        (storeBytes s.mem (BitVec.ofNat 64 buf) (host s.calls c).data) s'.mem ∧
      s'.calls = s.calls ++ [c] ∧ s'.fdMap = s.fdMap ∧ s'.halts = s.halts := by
  obtain ⟨b0, bk⟩ := hb
  have b1 : (word 64 s.mem payload 1).toNat = fd := bk 0 (by simp)
  have b2 : (word 64 s.mem payload 2).toNat = buf := bk 1 (by simp)
  have b3 : (word 64 s.mem payload 3).toNat = len := bk 2 (by simp)
  have hbuf : word 64 s.mem payload 2 = BitVec.ofNat 64 buf := by
    apply BitVec.eq_of_toNat_eq
    rw [BitVec.toNat_ofNat, ← b2, Nat.mod_eq_of_lt (word 64 s.mem payload 2).isLt]
  have hd := deliver_right (stale := stale) (host s.calls c) (BitVec.ofNat 64 buf) (s.did c) len hl
    ((hr s.calls c).1 hfdm len hc).1 ((hr s.calls c).1 hfdm len hc).2.1
    ((hr s.calls c).1 hfdm len hc).2.2
  have hsys : syscall host stale (fun k => word 64 s.mem payload k) s =
      .ret (BitVec.ofInt 64 (host s.calls c).ret)
        { s.did c with mem := storeBytes s.mem (BitVec.ofNat 64 buf) (host s.calls c).data } := by
    rw [syscall_eq _ _ _ b0]
    show sysRead host stale (fun k => word 64 s.mem payload k) s = _
    unfold sysRead
    have al : allocatable (word 64 s.mem payload 3) = true := by
      unfold allocatable; rw [b3]; exact decide_eq_true hl
    have hf : fdOf s (word 64 s.mem payload 1) = hfdm := by
      unfold fdOf; rw [toInt32_small _ fd b1 hfd, hm]; rfl
    dsimp only
    rw [al, if_neg (by decide), hf, b3, hbuf, ← hc, hd.1, hd.2]
    rfl
  exact ⟨_, made_ret h heven _ _ hsys, respond_answered
    (s := { s.did c with mem := storeBytes s.mem (BitVec.ofNat 64 buf) (host s.calls c).data })
    payload _, rfl, rfl, rfl⟩

/-- C94 (positioned read). -/
theorem C94_pread {payload : BitVec 64} (hr : Spec.ReadsRight host)
    (h : Made a s address size payload)
    (heven : payload.toNat % 2 = 0) (fd buf len off : Nat) (hfd : fd < 2 ^ 31)
    (hl : len < 2 ^ 31) (hoff : off < 2 ^ 63)
    (hb : Args s payload 67 [fd, buf, len, off]) (hfdm : Int) (hm : s.fdMap fd = some hfdm)
    (c : Call) (hc : c = .pread hfdm len off) :
    ∃ s' : St, storeEvent host stale a s address size = some s' ∧
      Answered a payload (BitVec.ofInt 64 (host s.calls c).ret)
        (storeBytes s.mem (BitVec.ofNat 64 buf) (host s.calls c).data) s'.mem ∧
      s'.calls = s.calls ++ [c] ∧ s'.fdMap = s.fdMap ∧ s'.halts = s.halts := by
  obtain ⟨b0, bk⟩ := hb
  have b1 : (word 64 s.mem payload 1).toNat = fd := bk 0 (by simp)
  have b2 : (word 64 s.mem payload 2).toNat = buf := bk 1 (by simp)
  have b3 : (word 64 s.mem payload 3).toNat = len := bk 2 (by simp)
  have b4 : (word 64 s.mem payload 4).toNat = off := bk 3 (by simp)
  have hbuf : word 64 s.mem payload 2 = BitVec.ofNat 64 buf := by
    apply BitVec.eq_of_toNat_eq
    rw [BitVec.toNat_ofNat, ← b2, Nat.mod_eq_of_lt (word 64 s.mem payload 2).isLt]
  have hd := deliver_right (stale := stale) (host s.calls c) (BitVec.ofNat 64 buf) (s.did c) len hl
    ((hr s.calls c).2 hfdm len off hc).1 ((hr s.calls c).2 hfdm len off hc).2.1
    ((hr s.calls c).2 hfdm len off hc).2.2
  have hsys : syscall host stale (fun k => word 64 s.mem payload k) s =
      .ret (BitVec.ofInt 64 (host s.calls c).ret)
        { s.did c with mem := storeBytes s.mem (BitVec.ofNat 64 buf) (host s.calls c).data } := by
    rw [syscall_eq _ _ _ b0]
    show sysPread host stale (fun k => word 64 s.mem payload k) s = _
    unfold sysPread
    have al : allocatable (word 64 s.mem payload 3) = true := by
      unfold allocatable; rw [b3]; exact decide_eq_true hl
    have hf : fdOf s (word 64 s.mem payload 1) = hfdm := by
      unfold fdOf; rw [toInt32_small _ fd b1 hfd, hm]; rfl
    dsimp only
    rw [al, if_neg (by decide), hf, b3, hbuf, BitVec.toInt_eq_toNat_of_lt (by rw [b4]; omega), b4,
      ← hc, hd.1, hd.2]
    rfl
  exact ⟨_, made_ret h heven _ _ hsys, respond_answered
    (s := { s.did c with mem := storeBytes s.mem (BitVec.ofNat 64 buf) (host s.calls c).data })
    payload _, rfl, rfl, rfl⟩

/-- C94 (exit): the halt callback runs once and 0 is answered. -/
theorem C94_exit {payload : BitVec 64} (h : Made a s address size payload)
    (heven : payload.toNat % 2 = 0) (hb : Args s payload 93 []) (hcb : s.haltCallback = true) :
    ∃ s' : St, storeEvent host stale a s address size = some s' ∧
      Answered a payload 0 s.mem s'.mem ∧ s'.halts = s.halts + 1 ∧ s'.calls = s.calls ∧
      s'.fdMap = s.fdMap := by
  have hsys : syscall host stale (fun k => word 64 s.mem payload k) s =
      .ret 0 { s with halts := s.halts + 1 } := by
    rw [syscall_eq _ _ _ hb.1]
    show sysExit s = _
    unfold sysExit
    rw [hcb, if_pos rfl]
  exact ⟨_, made_ret h heven _ _ hsys,
    respond_answered (s := { s with halts := s.halts + 1 }) payload _, rfl, rfl, rfl⟩

/-- C94 (open, part): the host is asked to open the name in the program's memory (up to the
terminating zero, which must lie in the length given) relative to the directory, with the
flags and mode given, and its return value is answered. -/
theorem C94_open_partial {payload : BitVec 64} (h : Made a s address size payload)
    (heven : payload.toNat % 2 = 0) (dir buf len fl mo : Nat) (hfl : fl < 2 ^ 31)
    (hmo : mo < 2 ^ 31) (hl : len < 2 ^ 31) (hb : Args s payload 56 [dir, buf, len, fl, mo])
    (name rest : List Byte) (hn : loadBytes s.mem (BitVec.ofNat 64 buf) len = name ++ 0 :: rest)
    (hz : (0 : Byte) ∉ name) (hdir : Int) (hm : fdOf s (BitVec.ofNat 64 dir) = hdir)
    (c : Call) (hc : c = .openat hdir name fl mo) :
    ∃ s' : St, storeEvent host stale a s address size = some s' ∧
      Answered a payload (BitVec.ofInt 64 (host s.calls c).ret) s.mem s'.mem ∧
      s'.calls = s.calls ++ [c] ∧ s'.fdMap = s.fdMap ∧ s'.halts = s.halts := by
  obtain ⟨b0, bk⟩ := hb
  have b1 : (word 64 s.mem payload 1).toNat = dir := bk 0 (by simp)
  have b2 : (word 64 s.mem payload 2).toNat = buf := bk 1 (by simp)
  have b3 : (word 64 s.mem payload 3).toNat = len := bk 2 (by simp)
  have b4 : (word 64 s.mem payload 4).toNat = fl := bk 3 (by simp)
  have b5 : (word 64 s.mem payload 5).toNat = mo := bk 4 (by simp)
  have hbuf : word 64 s.mem payload 2 = BitVec.ofNat 64 buf := by
    apply BitVec.eq_of_toNat_eq
    rw [BitVec.toNat_ofNat, ← b2, Nat.mod_eq_of_lt (word 64 s.mem payload 2).isLt]
  have hd1 : word 64 s.mem payload 1 = BitVec.ofNat 64 dir := by
    apply BitVec.eq_of_toNat_eq
    rw [BitVec.toNat_ofNat, ← b1, Nat.mod_eq_of_lt (word 64 s.mem payload 1).isLt]
  have htk : (name ++ (0 : Byte) :: rest).takeWhile (· ≠ 0) = name := by
    rw [List.takeWhile_append_of_pos (by intro x hx; simp only [ne_eq, decide_eq_true_eq]; intro q; subst q; exact hz hx)]
    simp
  have hsys : syscall host stale (fun k => word 64 s.mem payload k) s =
      .ret (BitVec.ofInt 64 (host s.calls c).ret) (s.did c) := by
    rw [syscall_eq _ _ _ b0]
    show sysOpenat host (fun k => word 64 s.mem payload k) s = _
    unfold sysOpenat
    have al : allocatable (word 64 s.mem payload 3) = true := by
      unfold allocatable; rw [b3]; exact decide_eq_true hl
    dsimp only
    rw [al, hbuf, b3, hn, if_neg (by simp), htk, toInt32_small _ fl b4 hfl,
      toInt32_small _ mo b5 hmo, hd1, hm, ← hc]
  exact ⟨_, made_ret h heven _ _ hsys, respond_answered (s := s.did c) payload _, rfl, rfl, rfl⟩

/-! ### Descriptors -/

theorem deliver_map (r : Resp) (dst : BitVec 64) (s : St) :
    (deliver stale r dst s).2.fdMap = s.fdMap := by
  unfold deliver
  dsimp only
  split <;> rfl

/-- What a system call does to descriptors and callbacks. -/
theorem syscall_map (p : Nat → BitVec 64) (s s' : St) (v : BitVec 64)
    (h : syscall host stale p s = .ret v s') (e : Int) :
    s'.fdMap e = s.fdMap e ∨ s'.fdMap e = none := by
  unfold syscall switch at h
  split at h
  · unfold sysOpenat at h
    dsimp only at h
    split at h
    · cases h
    · cases h; exact Or.inl rfl
  · unfold sysClose at h
    split at h
    · cases h; exact Or.inl rfl
    · cases h
      by_cases he : e = toInt32 (p 1)
      · right; simp [upd, he]
      · left; simp [upd, he]
  · cases h; exact Or.inl rfl
  · unfold sysRead at h
    split at h
    · cases h
    · cases h; left; rw [deliver_map]; rfl
  · unfold sysWrite at h
    split at h
    · cases h
    · cases h; exact Or.inl rfl
  · unfold sysPread at h
    split at h
    · cases h
    · cases h; left; rw [deliver_map]; rfl
  · unfold sysPwrite at h
    split at h
    · cases h
    · cases h; exact Or.inl rfl
  · cases h
    left
    split <;> rfl
  · cases h

theorem event_map (s s' : St) (h : storeEvent host stale a s address size = some s') (e : Int) :
    s'.fdMap e = s.fdMap e ∨ s'.fdMap e = none := by
  unfold storeEvent at h
  split at h
  · cases h; exact Or.inl rfl
  · split at h
    · cases h; exact Or.inl rfl
    · dsimp only at h
      split at h
      · cases h; exact Or.inl rfl
      · split at h
        · cases h; left; split <;> rfl
        · split at h
          · rename_i v t hs
            cases h
            exact syscall_map _ _ t v hs e
          · split at h
            · cases h; exact Or.inl rfl
            · cases h
          · cases h

/-- A history: the program stores (memory becomes anything), and the watcher reports. -/
inductive Reaches (host : Host) (stale : Nat → Byte) (a : Addresses) : St → St → Prop where
  | refl (s : St) : Reaches host stale a s s
  | step {s t t' : St} (mem : Memory) (address : BitVec 64) (size : Nat) :
      Reaches host stale a s t →
      storeEvent host stale a { t with mem := mem } address size = some t' →
      Reaches host stale a s t'

theorem reaches_map {s t : St} (h : Reaches host stale a s t) (e : Int) :
    t.fdMap e = s.fdMap e ∨ t.fdMap e = none := by
  induction h with
  | refl => exact Or.inl rfl
  | step mem address size _ hs ih =>
    rcases event_map _ _ hs e with q | q
    · rcases ih with r | r
      · exact Or.inl (q.trans r)
      · exact Or.inr (q.trans r)
    · exact Or.inr q

/-- C94, opened files can not be used: whatever files the program has opened, in every state
reached after construction a descriptor other than 0, 1, 2 and the working directory stands
for the host descriptor -1. So reads, writes and seeks on the descriptor a successful open
returned all fail. -/
theorem C94_opened_unusable_violated {s t : St} (h0 : s.fdMap = initialMap)
    (h : Reaches host stale a s t) (fd : BitVec 64)
    (hfd : toInt32 fd ∉ [0, 1, 2, atFdCwd]) : fdOf t fd = -1 := by
  unfold fdOf
  simp only [List.mem_cons, List.not_mem_nil, or_false] at hfd
  rcases reaches_map h (toInt32 fd) with q | q
  · rw [q, h0]
    unfold initialMap
    rw [if_neg hfd]
    rfl
  · rw [q]; rfl

/-- C94, close: closing an open descriptor answers 0 and forgets the descriptor (so the other
descriptors keep their meaning), but the host is never asked to close anything. -/
theorem C94_close_violated {payload : BitVec 64} (h : Made a s address size payload)
    (heven : payload.toNat % 2 = 0) (fd : Nat) (hfd : fd < 2 ^ 31)
    (hb : Args s payload 57 [fd]) (hfdm : Int) (hm : s.fdMap fd = some hfdm) :
    ∃ s' : St, storeEvent host stale a s address size = some s' ∧
      Answered a payload 0 s.mem s'.mem ∧ s'.calls = s.calls ∧ s'.fdMap fd = none ∧
      ∀ e : Int, e ≠ fd → s'.fdMap e = s.fdMap e := by
  have b1 : (word 64 s.mem payload 1).toNat = fd := hb.2 0 (by simp)
  have hsys : syscall host stale (fun k => word 64 s.mem payload k) s =
      .ret 0 { s with fdMap := upd s.fdMap fd none } := by
    rw [syscall_eq _ _ _ hb.1]
    show sysClose (fun k => word 64 s.mem payload k) s = _
    unfold sysClose
    dsimp only
    rw [toInt32_small _ fd b1 hfd, hm]
  refine ⟨_, made_ret h heven _ _ hsys,
    respond_answered (s := { s with fdMap := upd s.fdMap fd none }) payload _, rfl, ?_, ?_⟩
  · simp [respond, upd]
  · intro e he
    simp [respond, upd, he]

/-- C94 (close of a descriptor that is not open): -1, and nothing else happens. -/
theorem C94_close_bad {payload : BitVec 64} (h : Made a s address size payload)
    (heven : payload.toNat % 2 = 0) (fd : Nat) (hfd : fd < 2 ^ 31)
    (hb : Args s payload 57 [fd]) (hm : s.fdMap fd = none) :
    ∃ s' : St, storeEvent host stale a s address size = some s' ∧
      Answered a payload (BitVec.allOnes 64) s.mem s'.mem ∧ s'.calls = s.calls ∧
      s'.fdMap = s.fdMap := by
  have b1 : (word 64 s.mem payload 1).toNat = fd := hb.2 0 (by simp)
  have hsys : syscall host stale (fun k => word 64 s.mem payload k) s =
      .ret (BitVec.allOnes 64) s := by
    rw [syscall_eq _ _ _ hb.1]
    show sysClose (fun k => word 64 s.mem payload k) s = _
    unfold sysClose
    dsimp only
    rw [toInt32_small _ fd b1 hfd, hm]
    dsimp only
    congr 1
  exact ⟨_, made_ret h heven _ _ hsys, respond_answered payload _, rfl, rfl⟩

/-! ### Errors -/

/-- C94, error results: a failing write is answered with -1, whatever the error, where the
interface's convention is minus the error number. -/
theorem C94_errno_violated {payload : BitVec 64} (h : Made a s address size payload)
    (heven : payload.toNat % 2 = 0) (fd buf len : Nat) (hfd : fd < 2 ^ 31) (hl : len < 2 ^ 31)
    (hb : Args s payload 64 [fd, buf, len]) (hfdm : Int) (hm : s.fdMap fd = some hfdm)
    (r : Resp)
    (hr : host s.calls (.write hfdm (loadBytes s.mem (BitVec.ofNat 64 buf) len)) = r)
    (hf : r.ret = -1) (he : 1 < r.errno ∧ r.errno < 4096) :
    ∃ s' : St, storeEvent host stale a s address size = some s' ∧
      Answered a payload (BitVec.allOnes 64) s.mem s'.mem ∧
      BitVec.ofInt 64 (Spec.result r) ≠ BitVec.allOnes 64 := by
  obtain ⟨s', h1, h2, _⟩ := C94_write (host := host) (stale := stale) h heven fd buf len hfd hl hb
    hfdm hm _ rfl
  rw [hr, hf] at h2
  refine ⟨s', h1, h2, ?_⟩
  unfold Spec.result
  rw [if_pos hf]
  intro q
  have := congrArg BitVec.toNat q
  rw [BitVec.toNat_ofInt, BitVec.toNat_allOnes] at this
  omega

/-- The system calls that are handled. -/
def handled : List Nat := [56, 57, 62, 63, 64, 67, 68, 93]

theorem unhandled (p : Nat → BitVec 64) (s : St) (h : (p 0).toNat ∉ handled) :
    syscall host stale p s = .unhandled (p 0).toNat := by
  unfold syscall switch
  split <;> rename_i e <;> first | rfl | (rw [e] at h; exact absurd (by decide) h)

/-- C94, other system calls: with an error callback the number is reported to it, but the
program is not answered: memory, and so the response-ready byte, is as before. Without one
(the constructor without callbacks) the behaviour is undefined. -/
theorem C94_unhandled_violated {payload : BitVec 64} (h : Made a s address size payload)
    (heven : payload.toNat % 2 = 0) (hn : (word 64 s.mem payload 0).toNat ∉ handled) :
    storeEvent host stale a s address size =
      if s.errorCallback then
        some { s with errors := s.errors ++ [(word 64 s.mem payload 0).toNat] }
      else none := by
  rw [made_event h, if_neg (by omega),
    unhandled (fun k => word 64 s.mem payload k) s hn]

/-! ### A concrete call -/

def exAddrs : Addresses := ⟨0x100, 0x108, 0x110, 0x118⟩

/-- Memory with the ready byte set, `tohost` pointing to a block at 0x1000 that holds `ws`. -/
def exMem (ws : List Nat) : Memory := fun x =>
  if x = 0x100 then 1
  else if x = 0x109 then 0x10
  else if x.toNat < 0x1040 ∧ 0x1000 ≤ x.toNat then
    BitVec.ofNat 8 (ws.getD ((x.toNat - 0x1000) / 8) 0 / 256 ^ ((x.toNat - 0x1000) % 8))
  else if x = 0x2000 then 0x68 else 0

def exSt (ws : List Nat) : St := ⟨exMem ws, initialMap, [], 0, [], true, true⟩

def exHost : Host := fun _ c =>
  match c with
  | .openat .. => ⟨5, 0, []⟩
  | .read .. => ⟨2, 0, [0x61, 0x62]⟩
  | .write _ bs => ⟨bs.length, 0, []⟩
  | _ => ⟨0, 0, []⟩

/-- The hypotheses of the theorems above are met by a write of one byte to descriptor 1. -/
example : Made exAddrs (exSt [64, 1, 0x2000, 1]) 0x100 1 0x1000 := by
  unfold Made Spec.Covers
  decide +kernel

example : Args (exSt [64, 1, 0x2000, 1]) 0x1000 64 [1, 0x2000, 1] := by
  unfold Args
  decide +kernel

example : ((storeEvent exHost (fun _ => 0) exAddrs (exSt [64, 1, 0x2000, 1]) 0x100 1).map
    fun s => (s.calls, s.mem 0x110, s.mem 0x1000)) = some ([.write 1 [0x68]], 1, 1) := by
  decide +kernel

/-- A file opened (as host descriptor 5) can not be written to: the host is asked to write to
descriptor -1. -/
example : ((storeEvent exHost (fun _ => 0) exAddrs (exSt [64, 5, 0x2000, 1]) 0x100 1).map
    fun s => s.calls) = some [.write (-1) [0x68]] := by
  decide +kernel

end Verif.Htif
