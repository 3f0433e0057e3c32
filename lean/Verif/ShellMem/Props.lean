import Verif.ShellMem.Print
import Verif.DebugMem.Props
/-
C111, C112: `mem get` and `mem set`.
-/
namespace Verif.ShellMem
open Verif.Shell (Text)
open Verif.Core (Core)
open Verif.DebugMem (RunStatus ValidLimit)

variable {w : Nat}

/-- The memory, byte by byte. -/
def byteAt (c : Core w) (a : Nat) : Nat := (c.mem (BitVec.ofNat 64 a)).toNat

/-! ## Bytes and numbers -/

theorem stored_congr {f g : Nat → Nat} {a b k : Nat} (h : ∀ i, i < k → f (a + i) = g (b + i)) :
    Spec.stored f a k = Spec.stored g b k := by
  induction k with
  | zero => rfl
  | succ k ih =>
    rw [Spec.stored, Spec.stored, ih (fun i hi => h i (by omega)), h k (by omega)]

theorem number_snoc (l : List (BitVec 8)) (b : BitVec 8) :
    number (l ++ [b]) = number l + b.toNat * 256 ^ l.length := by
  induction l with
  | nil => simp [number]
  | cons x l ih =>
    rw [List.cons_append, number, number, ih, List.length_cons, Nat.pow_succ]
    grind

theorem number_stored (f : Nat → Nat) (a : Nat) : ∀ (k : Nat) (l : List (BitVec 8)), l.length = k →
    (∀ i, i < k → ∃ b : BitVec 8, l[i]? = some b ∧ b.toNat = f (a + i)) →
    number l = Spec.stored f a k := by
  intro k
  induction k with
  | zero =>
    intro l hl _
    rw [List.length_eq_zero_iff.mp hl]; rfl
  | succ k ih =>
    intro l hl h
    obtain ⟨b, hb, hv⟩ := h k (by omega)
    have e : l = l.take k ++ [b] := by
      have h1 : l.take (k + 1) = l.take k ++ [b] := by
        rw [List.take_add_one, hb]; rfl
      rw [← h1, List.take_of_length_le (by omega)]
    have ht : (l.take k).length = k := by rw [List.length_take]; omega
    rw [e, number_snoc, ht, Spec.stored, hv, ih (l.take k) ht]
    intro i hi
    obtain ⟨b', hb', hv'⟩ := h i (by omega)
    exact ⟨b', by rw [List.getElem?_take_of_lt hi, hb'], hv'⟩

theorem number_lt (l : List (BitVec 8)) : number l < 256 ^ l.length := by
  induction l with
  | nil => simp [number]
  | cons b l ih =>
    have := b.isLt
    rw [number, List.length_cons, Nat.pow_succ]
    omega

theorem bytesOf_length (v : BitVec 64) (k : Nat) : (bytesOf v k).length = k := by
  induction k generalizing v with
  | zero => rfl
  | succ k ih => simp [bytesOf, ih]

theorem number_bytesOf (v : BitVec 64) (k : Nat) : number (bytesOf v k) = v.toNat % 256 ^ k := by
  induction k generalizing v with
  | zero => simp [bytesOf, number, Nat.mod_one]
  | succ k ih =>
    rw [bytesOf, number, ih, BitVec.toNat_setWidth, BitVec.toNat_ushiftRight, Nat.shiftRight_eq_div_pow,
      Nat.pow_succ (n := 256), Nat.mul_comm (256 ^ k) 256, Nat.mod_mul]

/-! ## Formats -/

theorem readFormat_given {l : Char} {t : Text} {width : Nat} (hl : l ∈ ['o', 'd', 'u', 'x', 'X'])
    (hw : (t, width) ∈ [(['8'], 8), (['1', '6'], 16), (['3', '2'], 32), (['6', '4'], 64)]) :
    readFormat (l :: t) = some (l, width) ∧ IsWidth width := by
  have : ∀ l ∈ ['o', 'd', 'u', 'x', 'X'], ∀ p ∈ [(['8'], 8), (['1', '6'], 16), (['3', '2'], 32), (['6', '4'], 64)],
      readFormat (l :: p.1) = some (l, p.2) := by decide +kernel
  refine ⟨this l hl _ hw, ?_⟩
  unfold IsWidth
  simp only [List.mem_cons, Prod.mk.injEq, List.not_mem_nil, or_false] at hw
  omega

theorem format_get {f : Text} {l : Char} {width : Nat} (h : Spec.Format f l width) :
    (if f.isEmpty then some ('x', 32) else if f.head? = some 'i' then some ('i', 32) else readFormat f)
      = some (l, width) ∧ IsWidth width ∧ l ∈ "oduxX".toList := by
  cases h with
  | default => exact ⟨rfl, by unfold IsWidth; decide, by decide⟩
  | @given l t width hl hw =>
    obtain ⟨h1, h2⟩ := readFormat_given hl hw
    refine ⟨?_, h2, hl⟩
    rw [h1]
    have : ∀ l ∈ ['o', 'd', 'u', 'x', 'X'], l ≠ 'i' := by decide
    simp [this l hl]

theorem letter_facts {l : Char} (h : l ∈ "oduxX".toList) : l ≠ 'i' ∧ l ≠ 'f' := by
  have : ∀ l ∈ "oduxX".toList, l ≠ 'i' ∧ l ≠ 'f' := by decide
  exact this l h

/-! ## mem get -/

/-- C111: `mem get` shows the number stored at the address, least significant byte first, in the format
asked for, if the memory goes up to its last byte.

Missing: at the end of the memory, see `C111_end_violated`. -/
theorem C111_get_partial (syms : Symbols) (c : Core w) (buffer : List (BitVec 8)) (address format : Text)
    (a : Nat) (l : Char) (width : Nat) (hv : ValidLimit c)
    (ha : Spec.Denotes syms 0 address a) (hf : Spec.Format format l width)
    (hroom : a + width / 8 ≤ c.limit.toNat + 1) :
    ∃ text, (readMemory syms c .halted buffer address format).1 = .shown (BitVec.ofNat 64 a) text
      ∧ Spec.Shows l width (Spec.stored (byteAt c) a (width / 8)) text := by
  obtain ⟨hfm, hw, hl⟩ := format_get hf
  obtain ⟨hval, ha64⟩ := C110_denotes syms 0 (by omega) address a ha
  have hlet := letter_facts hl
  have hpos : 1 ≤ width / 8 ∧ width / 8 ≤ 8 ∧ width = 8 * (width / 8) := by
    unfold IsWidth at hw; omega
  have hA : (BitVec.ofNat 64 a).toNat = a := by rw [BitVec.toNat_ofNat, Nat.mod_eq_of_lt ha64]
  have hN : (BitVec.ofNat 64 (width / 8)).toNat = width / 8 := by
    rw [BitVec.toNat_ofNat, Nat.mod_eq_of_lt (by omega)]
  obtain ⟨bytes, hr, hlen, hget⟩ := DebugMem.C56_read c (BitVec.ofNat 64 a) (BitVec.ofNat 64 (width / 8)) hv
    (by rw [hA]; omega)
  have hlen' : bytes.length = width / 8 := by
    rw [hlen, hA, hN]; unfold DebugMem.Spec.room; omega
  have hnum : number bytes = Spec.stored (byteAt c) a (width / 8) := by
    refine number_stored _ _ _ _ hlen' (fun i hi => ?_)
    have := (hget i (by omega)).2
    rw [hA] at this
    exact ⟨_, this, rfl⟩
  have hlt : number bytes < 2 ^ width := by
    have := number_lt bytes
    rw [hlen'] at this
    rw [hpos.2.2, Nat.pow_mul]
    exact this
  have hs := shows hl hw hlt
  rw [hnum] at hs
  refine ⟨_, ?_, hs⟩
  unfold readMemory
  dsimp only
  rw [hfm]
  dsimp only
  rw [hval]
  dsimp only
  rw [if_neg hlet.1, hr]
  dsimp only
  have ht : (bytes ++ buffer.drop bytes.length).take (width / 8) = bytes := by
    rw [← hlen', List.take_left' rfl]
  rw [ht, hnum, if_neg (fun h => hlet.2 h.1)]
  split
  · rfl
  · split
    · rfl
    · split <;> rfl

/-- C111: nothing is shown while the core runs, or for an address above the memory. -/
theorem C111_refused (syms : Symbols) (c : Core w) (st : RunStatus) (buffer : List (BitVec 8))
    (address format : Text) (a : Nat) (l : Char) (width : Nat)
    (ha : Spec.Denotes syms 0 address a) (hf : Spec.Format format l width)
    (h : st ≠ .halted ∨ c.limit.toNat < a) :
    readMemory syms c st buffer address format = (.error, buffer) := by
  obtain ⟨hfm, hw, hl⟩ := format_get hf
  obtain ⟨hval, ha64⟩ := C110_denotes syms 0 (by omega) address a ha
  have hlet := letter_facts hl
  have hA : (BitVec.ofNat 64 a).toNat = a := by rw [BitVec.toNat_ofNat, Nat.mod_eq_of_lt ha64]
  have hrej := DebugMem.C56_reject c st (BitVec.ofNat 64 a) (BitVec.ofNat 64 (width / 8)) []
  unfold readMemory
  dsimp only
  rw [hfm]
  dsimp only
  rw [hval]
  dsimp only
  rw [if_neg hlet.1]
  by_cases hst : st = .halted
  · rw [(hrej.2 hst (by rw [hA]; exact h.resolve_left (fun x => x hst))).1]
  · rw [(hrej.1 hst).1]

/-- At the end of the memory the missing bytes are shown too: they are whatever the buffer had from the
commands before. -/
theorem C111_end_violated (syms : Symbols) (c : Core w) (buffer : List (BitVec 8)) (address : Text)
    (hv : ValidLimit c) (ha : Spec.Denotes syms 0 address c.limit.toNat) :
    ∃ text, (readMemory syms c .halted buffer address []).1 = .shown c.limit text
      ∧ Setup.Spec.Numeral 16 text (byteAt c c.limit.toNat + 256 * number ((buffer.drop 1).take 3)) := by
  obtain ⟨hval, ha64⟩ := C110_denotes syms 0 (by omega) address _ ha
  rw [BitVec.ofNat_toNat, BitVec.setWidth_eq] at hval
  obtain ⟨bytes, hr, hlen, hget⟩ := DebugMem.C56_read c c.limit 4#64 hv (Nat.le_refl _)
  have hlen' : bytes.length = 1 := by
    rw [hlen]; unfold DebugMem.Spec.room
    rw [show (4#64).toNat = 4 from rfl]
    omega
  obtain ⟨b, hb⟩ := List.length_eq_one_iff.mp hlen'
  have hb0 := (hget 0 (by omega)).2
  rw [hb, Nat.add_zero] at hb0
  injection hb0 with hb0
  have hlt : byteAt c c.limit.toNat + 256 * number ((buffer.drop 1).take 3) < 2 ^ 32 := by
    have h1 := number_lt ((buffer.drop 1).take 3)
    have h2 : (256 : Nat) ^ ((buffer.drop 1).take 3).length ≤ 256 ^ 3 :=
      Nat.pow_le_pow_right (by decide) (by rw [List.length_take]; omega)
    have h3 := (c.mem (BitVec.ofNat 64 c.limit.toNat)).isLt
    unfold byteAt
    omega
  refine ⟨hex 8 (byteAt c c.limit.toNat + 256 * number ((buffer.drop 1).take 3)), ?_,
    (hex_spec (k := 7) (by decide) hlt).2⟩
  unfold readMemory
  dsimp only [List.isEmpty]
  rw [if_pos rfl]
  dsimp only
  rw [hval]
  dsimp only
  rw [if_neg (by decide), show BitVec.ofNat 64 (32 / 8) = 4#64 from rfl, hr]
  dsimp only
  rw [hb]
  simp only [List.length_singleton, List.singleton_append, List.take_succ_cons, number, hb0]
  rfl

/-! ## mem set -/

theorem format_set {f : Text} {b width : Nat} (h : Spec.SetFormat f b width) :
    (if f.isEmpty then some (0, 32) else (readFormat f).map fun x => (radixOf x.1, x.2)) = some (b, width)
      ∧ IsWidth width ∧ (b = 0 ∨ b = 8 ∨ b = 10 ∨ b = 16) := by
  have key : ∀ {l f width b}, Spec.Format (l :: f) l width → radixOf l = b →
      (if (l :: f).isEmpty then some (0, 32) else (readFormat (l :: f)).map fun x => (radixOf x.1, x.2))
        = some (b, width) ∧ IsWidth width := by
    intro l f width b h hb
    cases h with
    | given hl hw =>
      obtain ⟨h1, h2⟩ := readFormat_given hl hw
      refine ⟨?_, h2⟩
      rw [h1, ← hb]
      rfl
  cases h with
  | default => exact ⟨rfl, by unfold IsWidth; decide, by decide⟩
  | hex hl h =>
    obtain ⟨h1, h2⟩ := key (b := 16) h (by rcases hl with rfl | rfl <;> rfl)
    exact ⟨h1, h2, by decide⟩
  | decimal hl h =>
    obtain ⟨h1, h2⟩ := key (b := 10) h (by rcases hl with rfl | rfl <;> rfl)
    exact ⟨h1, h2, by decide⟩
  | octal h =>
    obtain ⟨h1, h2⟩ := key (b := 8) h rfl
    exact ⟨h1, h2, by decide⟩

theorem hex_numeral {n : Nat} (k : Nat) (h : n < 2 ^ 64) : Setup.Spec.Numeral 16 (hex k n) n := by
  have hb : n < 16 ^ (64 + 1) := Nat.lt_trans h (by decide +kernel)
  exact numeral_zeros (by decide) (digitsOf_numeral (by decide) (by decide) _ _ hb) _

/-- What `mem set` does, whatever the value. -/
theorem set_any (syms : Symbols) (c : Core w) (buffer : List (BitVec 8)) (address format value : Text)
    (a n b width : Nat) (hv : ValidLimit c) (ha : Spec.Denotes syms 0 address a)
    (hf : Spec.SetFormat format b width) (hn : Spec.Denotes syms b value n)
    (hlim : a ≤ c.limit.toNat) :
    let r := writeMemory syms c .halted buffer address format value
    let k := DebugMem.Spec.room c.limit.toNat a (width / 8)
    r.1 = .shown (BitVec.ofNat 64 a) (hex (width / 4) n)
    ∧ (k = width / 8 → Spec.stored (byteAt r.2.1) a (width / 8) = n % 2 ^ width)
    ∧ (∀ i, i < 2 ^ 64 → i < a ∨ a + k ≤ i → byteAt r.2.1 i = byteAt c i)
    ∧ r.2.1 = { c with mem := r.2.1.mem } := by
  obtain ⟨hfm, hw, hbase⟩ := format_set hf
  obtain ⟨hval, ha64⟩ := C110_denotes syms 0 (by omega) address a ha
  obtain ⟨hvn, hn64⟩ := C110_denotes syms b hbase value n hn
  have hA : (BitVec.ofNat 64 a).toNat = a := by rw [BitVec.toNat_ofNat, Nat.mod_eq_of_lt ha64]
  have hV : (BitVec.ofNat 64 n).toNat = n := by rw [BitVec.toNat_ofNat, Nat.mod_eq_of_lt hn64]
  have hpos : 1 ≤ width / 8 ∧ width / 8 ≤ 8 ∧ width = 8 * (width / 8) := by
    unfold IsWidth at hw; omega
  have hlen := bytesOf_length (BitVec.ofNat 64 n) (width / 8)
  have hwr := DebugMem.C56_write c (BitVec.ofNat 64 a) (bytesOf (BitVec.ofNat 64 n) (width / 8)) hv
    (by omega) (by rw [hA]; exact hlim)
  dsimp only at hwr
  rw [hA, hlen] at hwr
  intro r k
  have ht : (bytesOf (BitVec.ofNat 64 n) (width / 8)
      ++ buffer.drop (bytesOf (BitVec.ofNat 64 n) (width / 8)).length).take (width / 8)
      = bytesOf (BitVec.ofNat 64 n) (width / 8) := List.take_left' hlen
  have hr : r.1 = .shown (BitVec.ofNat 64 a) (hex (width / 4) n)
      ∧ r.2.1 = (DebugMem.writeMemory c .halted (BitVec.ofNat 64 a)
          (bytesOf (BitVec.ofNat 64 n) (width / 8))).1 := by
    show (writeMemory syms c .halted buffer address format value).1 = _
      ∧ (writeMemory syms c .halted buffer address format value).2.1 = _
    unfold writeMemory
    dsimp only
    rw [hfm]
    dsimp only
    rw [hval]
    dsimp only
    rw [hvn]
    dsimp only
    rw [ht, hV]
    generalize DebugMem.writeMemory c .halted (BitVec.ofNat 64 a)
          (bytesOf (BitVec.ofNat 64 n) (width / 8)) = q at hwr ⊢
    obtain ⟨c', res⟩ := q
    obtain ⟨h1, -⟩ := hwr
    dsimp only at h1
    subst h1
    exact ⟨rfl, rfl⟩
  obtain ⟨-, h2, h3, h4⟩ := hwr
  rw [← hr.2] at h2 h3 h4
  refine ⟨hr.1, ?_, ?_, h4⟩
  · intro hk
    rw [hpos.2.2, Nat.pow_mul, ← hpos.2.2, ← hV, ← number_bytesOf]
    symm
    refine number_stored _ _ _ _ hlen (fun i hi => ?_)
    have := h2 i (by show i < k; omega)
    exact ⟨_, this.symm, rfl⟩
  · intro i hi hcase
    unfold byteAt
    rw [h3 (BitVec.ofNat 64 i) (by rw [BitVec.toNat_ofNat, Nat.mod_eq_of_lt hi]; exact hcase)]

/-- C112: `mem set` stores the value at the address, least significant byte first, changes nothing else
and shows the value, if the value has no more bits than the format and the memory goes up to its last
byte.

Missing: larger values and the end of the memory, see `C112_truncated_violated` and
`C112_end_violated`. -/
theorem C112_set_partial (syms : Symbols) (c : Core w) (buffer : List (BitVec 8))
    (address format value : Text) (a n b width : Nat) (hv : ValidLimit c)
    (ha : Spec.Denotes syms 0 address a) (hf : Spec.SetFormat format b width)
    (hn : Spec.Denotes syms b value n) (hroom : a + width / 8 ≤ c.limit.toNat + 1)
    (hfit : n < 2 ^ width) :
    let r := writeMemory syms c .halted buffer address format value
    (∃ text, r.1 = .shown (BitVec.ofNat 64 a) text ∧ Setup.Spec.Numeral 16 text n
      ∧ text.length = width / 4)
    ∧ Spec.stored (byteAt r.2.1) a (width / 8) = n
    ∧ (∀ i, i < 2 ^ 64 → i < a ∨ a + width / 8 ≤ i → byteAt r.2.1 i = byteAt c i)
    ∧ r.2.1 = { c with mem := r.2.1.mem } := by
  have hw := (format_set hf).2.1
  have hpos : 1 ≤ width / 8 := by unfold IsWidth at hw; omega
  have h := set_any syms c buffer address format value a n b width hv ha hf hn (by omega)
  dsimp only at h
  have hk : DebugMem.Spec.room c.limit.toNat a (width / 8) = width / 8 := by
    unfold DebugMem.Spec.room; omega
  rw [hk, Nat.mod_eq_of_lt hfit] at h
  have hx : (hex (width / 4) n).length = width / 4 ∧ Setup.Spec.Numeral 16 (hex (width / 4) n) n := by
    rcases hw with rfl | rfl | rfl | rfl
    · exact hex_spec (k := 1) (by decide) hfit
    · exact hex_spec (k := 3) (by decide) hfit
    · exact hex_spec (k := 7) (by decide) hfit
    · exact hex_spec (k := 15) (by decide) hfit
  exact ⟨⟨_, h.1, hx.2, hx.1⟩, h.2.1 rfl, h.2.2⟩

/-- C112: nothing is stored while the core runs, or at an address above the memory. -/
theorem C112_refused (syms : Symbols) (c : Core w) (st : RunStatus) (buffer : List (BitVec 8))
    (address format value : Text) (a n b width : Nat)
    (ha : Spec.Denotes syms 0 address a) (hf : Spec.SetFormat format b width)
    (hn : Spec.Denotes syms b value n) (h : st ≠ .halted ∨ c.limit.toNat < a) :
    (writeMemory syms c st buffer address format value).1 = .error
    ∧ (writeMemory syms c st buffer address format value).2.1 = c := by
  obtain ⟨hfm, hw, hbase⟩ := format_set hf
  obtain ⟨hval, ha64⟩ := C110_denotes syms 0 (by omega) address a ha
  obtain ⟨hvn, hn64⟩ := C110_denotes syms b hbase value n hn
  have hA : (BitVec.ofNat 64 a).toNat = a := by rw [BitVec.toNat_ofNat, Nat.mod_eq_of_lt ha64]
  unfold writeMemory
  dsimp only
  rw [hfm]
  dsimp only
  rw [hval]
  dsimp only
  rw [hvn]
  dsimp only
  have hrej := fun l => DebugMem.C56_reject c st (BitVec.ofNat 64 a) 0#64 l
  by_cases hst : st = .halted
  · rw [((hrej _).2 hst (by rw [hA]; exact h.resolve_left (fun x => x hst))).2]
    exact ⟨rfl, rfl⟩
  · rw [((hrej _).1 hst).2]
    exact ⟨rfl, rfl⟩

/-- A value of more bits than the format is cut without a word, and what is shown is the whole value,
not what is stored. -/
theorem C112_truncated_violated (syms : Symbols) (c : Core w) (buffer : List (BitVec 8))
    (address format value : Text) (a n b width : Nat) (hv : ValidLimit c)
    (ha : Spec.Denotes syms 0 address a) (hf : Spec.SetFormat format b width)
    (hn : Spec.Denotes syms b value n) (hroom : a + width / 8 ≤ c.limit.toNat + 1)
    (hbig : 2 ^ width ≤ n) :
    let r := writeMemory syms c .halted buffer address format value
    (∃ text, r.1 = .shown (BitVec.ofNat 64 a) text ∧ Setup.Spec.Numeral 16 text n)
    ∧ Spec.stored (byteAt r.2.1) a (width / 8) = n % 2 ^ width
    ∧ Spec.stored (byteAt r.2.1) a (width / 8) ≠ n := by
  have hw := (format_set hf).2.1
  have hpos : 1 ≤ width / 8 := by unfold IsWidth at hw; omega
  have h := set_any syms c buffer address format value a n b width hv ha hf hn (by omega)
  have hn64 := (C110_denotes syms b (format_set hf).2.2 value n hn).2
  dsimp only at h
  have hk : DebugMem.Spec.room c.limit.toNat a (width / 8) = width / 8 := by
    unfold DebugMem.Spec.room; omega
  rw [hk] at h
  refine ⟨⟨_, h.1, hex_numeral _ hn64⟩, h.2.1 rfl, ?_⟩
  rw [h.2.1 rfl]
  have : n % 2 ^ width < 2 ^ width := Nat.mod_lt _ (Nat.pow_pos (by decide))
  omega

/-- At the end of the memory only the bytes there are stored, and the whole value is shown as stored. -/
theorem C112_end_violated (syms : Symbols) (c : Core w) (buffer : List (BitVec 8))
    (address format value : Text) (a n b width : Nat) (hv : ValidLimit c)
    (ha : Spec.Denotes syms 0 address a) (hf : Spec.SetFormat format b width)
    (hn : Spec.Denotes syms b value n) (hlim : a ≤ c.limit.toNat)
    (hend : c.limit.toNat + 1 < a + width / 8) :
    let r := writeMemory syms c .halted buffer address format value
    (∃ text, r.1 = .shown (BitVec.ofNat 64 a) text ∧ Setup.Spec.Numeral 16 text n)
    ∧ ∀ i, i < 2 ^ 64 → c.limit.toNat < i → byteAt r.2.1 i = byteAt c i := by
  have h := set_any syms c buffer address format value a n b width hv ha hf hn hlim
  have hn64 := (C110_denotes syms b (format_set hf).2.2 value n hn).2
  dsimp only at h
  refine ⟨⟨_, h.1, hex_numeral _ hn64⟩, fun i hi hc => h.2.2.1 i hi (Or.inr ?_)⟩
  unfold DebugMem.Spec.room
  omega

/-- C112: after `mem set`, `mem get` with any format of the same width shows the value. -/
theorem C112_round_trip_partial (syms : Symbols) (c : Core w) (buffer buffer' : List (BitVec 8))
    (address format value format' : Text) (l : Char) (a n b width : Nat) (hv : ValidLimit c)
    (ha : Spec.Denotes syms 0 address a) (hf : Spec.SetFormat format b width)
    (hn : Spec.Denotes syms b value n) (hroom : a + width / 8 ≤ c.limit.toNat + 1)
    (hfit : n < 2 ^ width) (hf' : Spec.Format format' l width) :
    ∃ text, (readMemory syms (writeMemory syms c .halted buffer address format value).2.1 .halted buffer'
        address format').1 = .shown (BitVec.ofNat 64 a) text ∧ Spec.Shows l width n text := by
  obtain ⟨-, h2, -, h4⟩ := C112_set_partial syms c buffer address format value a n b width hv ha hf hn
    hroom hfit
  generalize (writeMemory syms c .halted buffer address format value).2.1 = c' at h2 h4
  have hlim : c'.limit = c.limit := by rw [h4]
  have hv' : ValidLimit c' := by unfold ValidLimit; rw [hlim]; exact hv
  have := C111_get_partial syms c' buffer' address format' a l width hv' ha hf' (by rw [hlim]; exact hroom)
  rwa [h2] at this

/-! ## Cases that meet the hypotheses -/

theorem sample_address : Spec.Denotes none 0 "0x10".toList 16 :=
  .number (.hex (Or.inl rfl) (by simp) (.cons (d := 1) (Or.inl rfl) (by decide)
    (.cons (d := 0) (Or.inl rfl) (by decide) .nil))) (by decide)

theorem sample_value : Spec.Denotes none 16 "abc".toList 0xabc :=
  .number (.plain (by decide) (by simp) (.cons (d := 10) (Or.inl rfl) (by decide)
    (.cons (d := 11) (Or.inl rfl) (by decide) (.cons (d := 12) (Or.inl rfl) (by decide) .nil)))) (by decide)

example : ValidLimit DebugMem.small ∧ 16 + 16 / 8 ≤ DebugMem.small.limit.toNat + 1 ∧ 0xabc < 2 ^ 16
    ∧ 2 ^ 8 ≤ 0xabc := ⟨DebugMem.setLimit_valid _ _, by decide, by decide, by decide⟩
example : Spec.SetFormat "x16".toList 16 16 := .hex (Or.inl rfl) (.given (by decide) (by decide))
example : Spec.Format "d8".toList 'd' 8 := .given (by decide) (by decide)
example : Spec.Denotes none 0 "4095".toList DebugMem.small.limit.toNat :=
  .number (.decimal (by decide) (.cons (d := 4) (Or.inl rfl) (by decide)
    (.cons (d := 0) (Or.inl rfl) (by decide) (.cons (d := 9) (Or.inl rfl) (by decide)
      (.cons (d := 5) (Or.inl rfl) (by decide) .nil))))) (by decide)
example : (writeMemory none DebugMem.small .halted [] "0x10".toList "x16".toList "abc".toList).1
    = .shown 16#64 "0abc".toList := by decide +kernel
example : (readMemory none (writeMemory none DebugMem.small .halted [] "0x10".toList "x16".toList
    "fffe".toList).2.1 .halted [] "16".toList "d16".toList).1 = .shown 16#64 "-2".toList := by
  decide +kernel

end Verif.ShellMem
