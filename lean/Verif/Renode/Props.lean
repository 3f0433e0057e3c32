import Verif.Renode.Model
import Verif.Renode.Spec
/-
C136: a Renode hart is configured as asked, and its memory holds what was last written to it.
-/
namespace Verif.Renode
open Spec

/-! ## Reading the settings -/

theorem value_cons {n m : String} {t : Text} {rest : List (String × Text)} (hn : ¬Textual n)
    (h : Legible rest) :
    value n ((m, t) :: rest) =
      (value n rest).or (if m = n then Setup.parseNumber t else none) := by
  have key : ∀ u, last n rest = some u → (Setup.parseNumber u).isSome := by
    clear t m
    induction rest with
    | nil => intro u hu; cases hu
    | cons p rest ih =>
      obtain ⟨q, t⟩ := p
      intro u hu
      have ih := ih (fun p hp => h p (List.mem_cons_of_mem _ hp))
      simp only [last] at hu
      cases hl : last n rest with
      | some w => rw [hl] at hu; cases hu; exact ih _ hl
      | none =>
        rw [hl] at hu
        by_cases hq : q = n
        · simp only [hq, if_true] at hu
          cases hu
          exact h (q, t) (List.mem_cons_self ..) (by rw [hq]; exact hn)
        · simp only [hq, if_false] at hu; cases hu
  unfold value
  simp only [last]
  cases hl : last n rest with
  | some u =>
    have := key u hl
    cases hp : Setup.parseNumber u with
    | some v => simp [hp]
    | none => rw [hp] at this; cases this
  | none =>
    by_cases hm : m = n <;> simp [hm]

theorem last_cons (n m : String) (t : Text) (rest : List (String × Text)) :
    last n ((m, t) :: rest) = (last n rest).or (if m = n then some t else none) := by
  simp only [last]
  cases last n rest <;> rfl

/-- What the settings come to, on top of `g`. -/
def over (g : Given) (p : List (String × Text)) : Given where
  icache := (last "iCache" p).getD g.icache
  dcache := (last "dCache" p).getD g.dcache
  base := (value "memoryBase" p).getD g.base
  size := (value "memorySize" p).getD g.size
  clint := (value "clintMMRBase" p).getD g.clint
  stackEnd := (value "stackEnd" p).or g.stackEnd
  stackSize := (value "stackSize" p).or g.stackSize
  profile := ((value "instProfile" p).map fun v => decide (v ≠ 0#64)).getD g.profile
  port := ((value "cliPort" p).map fun v => v.truncate 32).getD g.port
  wait := ((value "waitForCLI" p).map fun v => v.truncate 32).getD g.wait

/-- Whether memory use is profiled after the settings. -/
def profiled (b : Bool) (p : List (String × Text)) : Bool :=
  ((value "memProfile" p).map fun v => decide (v ≠ 0#64)).getD b

theorem getD_or {α : Type} (a b : Option α) (c : α) : (a.or b).getD c = a.getD (b.getD c) := by
  cases a <;> rfl

theorem map_or' {α β : Type} (f : α → β) (a b : Option α) : (a.or b).map f = (a.map f).or (b.map f) := by
  cases a <;> rfl

theorem over_take {g : Given} {m : String} {t : Text} {v : BitVec 64} {rest : List (String × Text)}
    (h : Legible rest) (hm : ¬Textual m) (hv : Setup.parseNumber t = some v) :
    over g ((m, t) :: rest) = over (take m v g) rest := by
  have e1 : m ≠ "iCache" := fun e => hm (.inl e)
  have e2 : m ≠ "dCache" := fun e => hm (.inr e)
  have l : ∀ n, ¬Textual n → value n ((m, t) :: rest) =
      (value n rest).or (if m = n then some v else none) := fun n hn => by
    rw [value_cons hn h, hv]
  unfold over
  rw [l _ (by simp [Textual]), l _ (by simp [Textual]), l _ (by simp [Textual]), l _ (by simp [Textual]),
    l _ (by simp [Textual]), l _ (by simp [Textual]), l _ (by simp [Textual]), l _ (by simp [Textual]),
    last_cons, last_cons, if_neg e1, if_neg e2]
  simp only [Option.or_none, getD_or, map_or', Option.or_assoc]
  unfold take
  repeat' split
  all_goals first
    | (subst_vars; simp_all; done)
    | (simp_all; done)

theorem read_legible (p : List (String × Text)) : ∀ (d : Dev) (g : Given), Legible p →
    read d g p = ({ d with memProfile := profiled d.memProfile p }, some (over g p)) := by
  induction p with
  | nil => intro d g _; rfl
  | cons q rest ih =>
    obtain ⟨m, t⟩ := q
    intro d g h
    have hr : Legible rest := fun p hp => h p (List.mem_cons_of_mem _ hp)
    have pv : ∀ n, ¬Textual n → Textual m → value n ((m, t) :: rest) = value n rest := by
      intro n hn hm
      rw [value_cons hn hr, if_neg (by intro e; rw [e] at hm; exact hn hm), Option.or_none]
    unfold read
    by_cases h1 : m = "iCache"
    · rw [if_pos h1, ih _ _ hr]
      have hT : Textual m := .inl h1
      unfold over profiled
      rw [pv _ (by simp [Textual]) hT, pv _ (by simp [Textual]) hT, pv _ (by simp [Textual]) hT,
        pv _ (by simp [Textual]) hT, pv _ (by simp [Textual]) hT, pv _ (by simp [Textual]) hT,
        pv _ (by simp [Textual]) hT, pv _ (by simp [Textual]) hT, pv _ (by simp [Textual]) hT, last_cons,
        last_cons, if_pos h1, if_neg (by rw [h1]; decide), Option.or_none, getD_or]
      rfl
    · rw [if_neg h1]
      by_cases h2 : m = "dCache"
      · rw [if_pos h2, ih _ _ hr]
        have hT : Textual m := .inr h2
        unfold over profiled
        rw [pv _ (by simp [Textual]) hT, pv _ (by simp [Textual]) hT, pv _ (by simp [Textual]) hT,
          pv _ (by simp [Textual]) hT, pv _ (by simp [Textual]) hT, pv _ (by simp [Textual]) hT,
          pv _ (by simp [Textual]) hT, pv _ (by simp [Textual]) hT, pv _ (by simp [Textual]) hT, last_cons,
          last_cons, if_neg h1, if_pos h2, Option.or_none, getD_or]
        rfl
      · rw [if_neg h2]
        have hT : ¬Textual m := fun e => e.elim h1 h2
        have hs := h (m, t) (List.mem_cons_self ..) hT
        cases hv : Setup.parseNumber t with
        | none => rw [hv] at hs; cases hs
        | some v =>
          dsimp only
          by_cases h3 : m = "memProfile"
          · rw [if_pos h3, ih _ _ hr]
            rw [over_take hr hT hv]
            have : take m v g = g := by subst h3; unfold take; simp
            rw [this]
            unfold profiled
            rw [value_cons (by simp [Textual]) hr, if_pos h3, hv, map_or', getD_or]
            rfl
          · rw [if_neg h3, ih _ _ hr, over_take hr hT hv]
            unfold profiled
            rw [value_cons (by simp [Textual]) hr, if_neg h3, Option.or_none]

theorem read_illegible (p : List (String × Text)) : ∀ (d : Dev) (g : Given), ¬Legible p →
    (read d g p).2 = none := by
  induction p with
  | nil => intro d g h; exact absurd (fun p hp => absurd hp List.not_mem_nil) h
  | cons q rest ih =>
    obtain ⟨m, t⟩ := q
    intro d g h
    have split : ∀ (_ : Textual m ∨ (Setup.parseNumber t).isSome), ¬Legible rest := by
      intro ht hr
      apply h
      intro p hp hT
      rcases List.mem_cons.1 hp with e | e
      · subst e; exact ht.elim (fun x => absurd x hT) id
      · exact hr p e hT
    unfold read
    by_cases h1 : m = "iCache"
    · rw [if_pos h1]; exact ih _ _ (split (.inl (.inl h1)))
    · rw [if_neg h1]
      by_cases h2 : m = "dCache"
      · rw [if_pos h2]; exact ih _ _ (split (.inl (.inr h2)))
      · rw [if_neg h2]
        cases hv : Setup.parseNumber t with
        | none => rfl
        | some v =>
          have := split (.inr (by rw [hv]; rfl))
          dsimp only
          by_cases h3 : m = "memProfile"
          · rw [if_pos h3]; exact ih _ _ this
          · rw [if_neg h3]; exact ih _ _ this

theorem read_kept (p : List (String × Text)) : ∀ (d : Dev) (g : Given), last "memProfile" p = none →
    (read d g p).1 = d := by
  induction p with
  | nil => intro d g _; rfl
  | cons q rest ih =>
    obtain ⟨m, t⟩ := q
    intro d g h
    rw [last_cons] at h
    have hr : last "memProfile" rest = none := by
      cases hl : last "memProfile" rest with
      | none => rfl
      | some u => rw [hl] at h; cases h
    have hm : m ≠ "memProfile" := by
      intro e; rw [hr, if_pos e] at h; cases h
    unfold read
    split
    · exact ih _ _ hr
    · split
      · exact ih _ _ hr
      · cases Setup.parseNumber t with
        | none => rfl
        | some v => (first | exact ih _ _ hr | (dsimp only; rw [if_neg hm]; exact ih _ _ hr))

/-- `SetConfig` on legible settings. -/
theorem setConfig_legible (socket : BitVec 32 → Bool) (d : Dev) {p : List (String × Text)}
    (h : Legible p) :
    setConfig socket d p =
      (let g := over {} p
       let d := { d with memProfile := profiled d.memProfile p }
       if g.size = 0#64 then .refused d
       else match addTargets d g with
        | none => .abort
        | some d =>
          let d := addProfiler d g
          if g.port ≠ 0#32 ∧ d.cli = none then
            let d := { d with cli := some (g.port, decide (g.wait ≠ 0#32)) }
            if socket g.port then .ok (setCaches (setStack d g) g) else .refused d
          else .ok (setCaches (setStack d g) g)) := by
  unfold setConfig
  rw [read_legible p d {} h]
  rfl

/-- The settings there are. -/
def names : List String :=
  ["memoryBase", "memorySize", "clintMMRBase", "cliPort", "waitForCLI", "instProfile", "memProfile",
    "stackEnd", "stackSize", "iCache", "dCache"]

/-- C136: what a configuration does depends on the value given last for each setting alone: neither the order
in which different settings are given, nor values overridden later, nor settings there are not, matter. -/
theorem C136_settings (socket : BitVec 32 → Bool) (d : Dev) {p q : List (String × Text)} (hp : Legible p)
    (hq : Legible q) (h : ∀ n ∈ names, last n p = last n q) :
    setConfig socket d p = setConfig socket d q := by
  have v : ∀ n ∈ names, value n p = value n q := fun n hn => by unfold value; rw [h n hn]
  have ho : over {} p = over {} q := by
    unfold over
    rw [h "iCache" (by decide), h "dCache" (by decide), v "memoryBase" (by decide),
      v "memorySize" (by decide), v "clintMMRBase" (by decide), v "stackEnd" (by decide),
      v "stackSize" (by decide), v "instProfile" (by decide), v "cliPort" (by decide),
      v "waitForCLI" (by decide)]
  have hb : profiled d.memProfile p = profiled d.memProfile q := by
    unfold profiled; rw [v "memProfile" (by decide)]
  rw [setConfig_legible socket d hp, setConfig_legible socket d hq, ho, hb]

/-- Two orders of two settings, one of them given twice, and a setting there is not. -/
example : Legible [("memorySize", "0x1000".toList), ("memoryBase", "64".toList)] ∧
    Legible [("memoryBase", "1".toList), ("bus", "7".toList), ("memoryBase", "64".toList),
      ("memorySize", "0x1000".toList)] ∧
    ∀ n ∈ names, last n [("memorySize", "0x1000".toList), ("memoryBase", "64".toList)] =
      last n [("memoryBase", "1".toList), ("bus", "7".toList), ("memoryBase", "64".toList),
        ("memorySize", "0x1000".toList)] := by
  decide

/-- The value given for a setting, 0 if none is. -/
def num (n : String) (p : List (String × Text)) : Nat := ((value n p).getD 0#64).toNat

theorem addTargets_keeps {d d' : Dev} {g : Given} (h : addTargets d g = some d') :
    ∃ m a, d' = { d with map := m, atomics := a } := by
  unfold addTargets at h
  split at h
  · split at h
    · split at h
      · cases h; exact ⟨_, _, rfl⟩
      · cases h
    · cases h; exact ⟨_, _, rfl⟩
  · cases h

theorem setStack_map (d : Dev) (g : Given) : (setStack d g).map = d.map ∧ (setStack d g).atomics = d.atomics
    ∧ (setStack d g).bytes = d.bytes ∧ (setStack d g).memProfile = d.memProfile ∧
    (setStack d g).profiler = d.profiler ∧ (setStack d g).trace = d.trace ∧ (setStack d g).elf = d.elf ∧
    (setStack d g).cli = d.cli ∧ (setStack d g).icache = d.icache ∧ (setStack d g).dcache = d.dcache := by
  unfold setStack
  split <;> exact ⟨rfl, rfl, rfl, rfl, rfl, rfl, rfl, rfl, rfl, rfl⟩

theorem setStack_sp (d : Dev) (g : Given) : (setStack d g).sp =
    (Setup.stackPointer (d.elf.getD ⟨none, none, none⟩) g.stackEnd g.stackSize).or d.sp := by
  unfold setStack
  split <;> rename_i e <;> rw [e] <;> rfl

theorem addProfiler_keeps (d : Dev) (g : Given) :
    ∃ b t, addProfiler d g = { d with profiler := b, trace := t } := by
  unfold addProfiler
  split
  · exact ⟨_, _, rfl⟩
  · exact ⟨d.profiler, d.trace, rfl⟩

/-- What an accepted configuration went through. -/
theorem accepted {socket : BitVec 32 → Bool} {d d' : Dev} {p : List (String × Text)}
    (h : setConfig socket d p = .ok d') :
    Legible p ∧ (over {} p).size ≠ 0#64 ∧
    ∃ e, addTargets { d with memProfile := profiled d.memProfile p } (over {} p) = some e ∧
      d' = setCaches (setStack { addProfiler e (over {} p) with
        cli := if (over {} p).port ≠ 0#32 ∧ e.cli = none then
          some ((over {} p).port, decide ((over {} p).wait ≠ 0#32)) else e.cli } (over {} p)) (over {} p) := by
  by_cases hl : Legible p
  · refine ⟨hl, ?_⟩
    rw [setConfig_legible socket d hl] at h
    dsimp only at h
    by_cases hz : (over {} p).size = 0#64
    · rw [if_pos hz] at h; cases h
    · rw [if_neg hz] at h
      refine ⟨hz, ?_⟩
      cases ha : addTargets { d with memProfile := profiled d.memProfile p } (over {} p) with
      | none => rw [ha] at h; cases h
      | some e =>
        rw [ha] at h
        dsimp only at h
        refine ⟨e, rfl, ?_⟩
        obtain ⟨b, t, hb⟩ := addProfiler_keeps e (over {} p)
        have hc : (addProfiler e (over {} p)).cli = e.cli := by rw [hb]
        rw [hc] at h
        by_cases hi : (over {} p).port ≠ 0#32 ∧ e.cli = none
        · rw [if_pos hi] at h ⊢
          split at h
          · cases h; rfl
          · cases h
        · rw [if_neg hi] at h ⊢
          cases h
          rw [← hc]
  · unfold setConfig at h
    have := read_illegible p d {} hl
    cases hr : read d {} p with
    | mk a b => rw [hr] at this h; cases this; cases h

/-- C136: an accepted configuration was legible and gave the memory a size; it sets the memory profiler, the
stack pointer and the caches as asked, keeps what was not asked for, and leaves the memory's contents and
the program alone. -/
theorem C136_configured {socket : BitVec 32 → Bool} {d d' : Dev} {p : List (String × Text)}
    (h : setConfig socket d p = .ok d') :
    Legible p ∧ num "memorySize" p ≠ 0 ∧
    (d'.memProfile = match value "memProfile" p with
      | some v => decide (v ≠ 0#64)
      | none => d.memProfile) ∧
    (d'.sp = match Setup.stackPointer (d.elf.getD ⟨none, none, none⟩) (value "stackEnd" p)
        (value "stackSize" p) with
      | some v => some v
      | none => d.sp) ∧
    (∀ t, last "iCache" p = some t → t ≠ [] → d.icache = none → d'.icache = some t) ∧
    (∀ t, last "dCache" p = some t → t ≠ [] → d.dcache = none → d'.dcache = some t) ∧
    (last "iCache" p = none → d'.icache = d.icache) ∧ (last "dCache" p = none → d'.dcache = d.dcache) ∧
    d'.bytes = d.bytes ∧ d'.elf = d.elf := by
  obtain ⟨hl, hz, e, he, rfl⟩ := accepted h
  obtain ⟨m, a, rfl⟩ := addTargets_keeps he
  obtain ⟨b, t, hb⟩ := addProfiler_keeps
    { d with memProfile := profiled d.memProfile p, map := m, atomics := a } (over {} p)
  rw [hb]
  have so : ∀ (x : Option (BitVec 64)), x.or none = x := fun x => by cases x <;> rfl
  refine ⟨hl, ?_, ?_, ?_, ?_, ?_, ?_, ?_, ?_, ?_⟩
  · intro e
    apply hz
    apply BitVec.eq_of_toNat_eq
    exact e
  · unfold setCaches
    dsimp only
    rw [(setStack_map _ _).2.2.2.1]
    unfold profiled
    dsimp only
    cases value "memProfile" p <;> rfl
  · unfold setCaches
    dsimp only
    rw [setStack_sp]
    unfold over
    dsimp only
    rw [so, so]
    cases Setup.stackPointer (d.elf.getD ⟨none, none, none⟩) (value "stackEnd" p) (value "stackSize" p) <;> rfl
  · intro t ht hn hd
    unfold setCaches
    dsimp only
    rw [(setStack_map _ _).2.2.2.2.2.2.2.2.1]
    unfold over setCache
    dsimp only
    rw [ht, hd]
    cases t with
    | nil => exact absurd rfl hn
    | cons x y => rfl
  · intro t ht hn hd
    unfold setCaches
    dsimp only
    rw [(setStack_map _ _).2.2.2.2.2.2.2.2.2]
    unfold over setCache
    dsimp only
    rw [ht, hd]
    cases t with
    | nil => exact absurd rfl hn
    | cons x y => rfl
  · intro ht
    unfold setCaches
    dsimp only
    rw [(setStack_map _ _).2.2.2.2.2.2.2.2.1]
    unfold over setCache
    dsimp only
    rw [ht]
    rfl
  · intro ht
    unfold setCaches
    dsimp only
    rw [(setStack_map _ _).2.2.2.2.2.2.2.2.2]
    unfold over setCache
    dsimp only
    rw [ht]
    rfl
  · unfold setCaches
    dsimp only
    rw [(setStack_map _ _).2.2.1]
  · unfold setCaches
    dsimp only
    rw [(setStack_map _ _).2.2.2.2.2.2.1]

/-! ## The memory map -/

theorem accepted_map {socket : BitVec 32 → Bool} {d d' : Dev} {p : List (String × Text)}
    (h : setConfig socket d p = .ok d') :
    ∃ e, addTargets { d with memProfile := profiled d.memProfile p } (over {} p) = some e ∧
      d'.map = e.map ∧ d'.atomics = e.atomics := by
  obtain ⟨_, _, e, he, rfl⟩ := accepted h
  refine ⟨e, he, ?_, ?_⟩
  · unfold setCaches
    dsimp only
    rw [(setStack_map _ _).1]
    obtain ⟨b, t, hb⟩ := addProfiler_keeps e (over {} p)
    rw [hb]
  · unfold setCaches
    dsimp only
    rw [(setStack_map _ _).2.1]
    obtain ⟨b, t, hb⟩ := addProfiler_keeps e (over {} p)
    rw [hb]

/-- The last byte of a run that does not wrap around. -/
theorem last_byte {a s : BitVec 64} (hs : s ≠ 0#64) (h : ¬(a + s - 1#64 < a)) :
    (a + s - 1#64).toNat = a.toNat + s.toNat - 1 ∧ a.toNat + s.toNat ≤ 2 ^ 64 ∧ 0 < s.toNat := by
  have h0 : s.toNat ≠ 0 := fun e => hs (BitVec.eq_of_toNat_eq (by simpa using e))
  have ha := a.isLt
  have hs := s.isLt
  rw [BitVec.lt_def] at h
  simp only [BitVec.toNat_sub, BitVec.toNat_add, BitVec.toNat_ofNat] at h ⊢
  omega

theorem last_byte' {a s : BitVec 64} (hs : 0 < s.toNat) (h : a.toNat + s.toNat ≤ 2 ^ 64) :
    (a + s - 1#64).toNat = a.toNat + s.toNat - 1 := by
  have ha := a.isLt
  have hs := s.isLt
  simp only [BitVec.toNat_sub, BitVec.toNat_add, BitVec.toNat_ofNat]
  omega

theorem last_byte_n {a : BitVec 64} {n : Nat} (hn : 0 < n) (h : a.toNat + n ≤ 2 ^ 64) :
    (a + BitVec.ofNat 64 n - 1#64).toNat = a.toNat + n - 1 := by
  have ha := a.isLt
  simp only [BitVec.toNat_sub, BitVec.toNat_add, BitVec.toNat_ofNat]
  omega

/-- Nothing has been configured yet. -/
def Fresh (d : Dev) : Prop := d.map = [] ∧ d.atomics = []

/-- The memory asked for lies in the address space, as does the clint, if it is asked for at an address
other than 0, and they are apart. -/
def Sound (p : List (String × Text)) : Prop :=
  0 < num "memorySize" p ∧ num "memoryBase" p + num "memorySize" p ≤ 2 ^ 64 ∧
  (num "clintMMRBase" p ≠ 0 → num "clintMMRBase" p + 0x10000 ≤ 2 ^ 64 ∧
    Apart (num "memoryBase" p) (num "memorySize" p) (num "clintMMRBase" p) 0x10000)

theorem apart_iff {a n b m : Nat} (hn : 0 < n) (hm : 0 < m) : Apart a n b m ↔ a + n ≤ b ∨ b + m ≤ a := by
  constructor
  · intro h
    by_cases hab : a ≤ b
    · left
      have := h b
      unfold Among at this
      omega
    · right
      have := h a
      unfold Among at this
      omega
  · intro h x hx
    unfold Among at hx
    omega

theorem addTarget_nil (r : Range) : addTarget [] r = if r.top < r.base then none else some [r] := rfl

/-- The map of a hart configured for the first time. -/
theorem fresh_map {d e : Dev} {g : Given} (hf : Fresh d) (hs : g.size ≠ 0#64)
    (h : addTargets d g = some e) :
    g.base.toNat + g.size.toNat ≤ 2 ^ 64 ∧
    e.atomics = [⟨g.base, g.base + g.size - 1#64, .memory⟩] ∧
    ((g.clint = 0#64 ∧ e.map = [⟨g.base, g.base + g.size - 1#64, .memory⟩]) ∨
     (g.clint ≠ 0#64 ∧ g.clint.toNat + 0x10000 ≤ 2 ^ 64 ∧
      (g.base.toNat + g.size.toNat ≤ g.clint.toNat ∨ g.clint.toNat + 0x10000 ≤ g.base.toNat) ∧
      e.map = [⟨g.base, g.base + g.size - 1#64, .memory⟩, ⟨g.clint, g.clint + 0xffff#64, .clint⟩])) := by
  unfold addTargets at h
  rw [hf.1, hf.2, addTarget_nil] at h
  dsimp only at h
  by_cases ht : g.base + g.size - 1#64 < g.base
  · rw [if_pos ht] at h; cases h
  · rw [if_neg ht] at h
    dsimp only at h
    obtain ⟨h1, h2, h3⟩ := last_byte hs ht
    refine ⟨h2, ?_⟩
    by_cases hc : g.clint = 0#64
    · rw [if_neg (by simp [hc])] at h
      cases h
      exact ⟨rfl, .inl ⟨hc, rfl⟩⟩
    · rw [if_pos hc] at h
      unfold addTarget at h
      dsimp only at h
      by_cases hw : g.clint + 0xffff#64 < g.clint
      · rw [if_pos hw] at h; cases h
      · rw [if_neg hw] at h
        by_cases hm : (([⟨g.base, g.base + g.size - 1#64, .memory⟩] : List Range).any fun q =>
            decide (q.base ≤ g.clint + 0xffff#64) && decide (g.clint ≤ q.top)) = true
        · rw [if_pos hm] at h; cases h
        · rw [if_neg hm] at h
          cases h
          refine ⟨rfl, .inr ⟨hc, ?_, ?_, rfl⟩⟩
          · rw [BitVec.lt_def, BitVec.toNat_add] at hw
            have := g.clint.isLt
            simp only [BitVec.toNat_ofNat] at hw
            omega
          · have hw' : (g.clint + 0xffff#64).toNat = g.clint.toNat + 0xffff := by
              rw [BitVec.lt_def, BitVec.toNat_add] at hw
              rw [BitVec.toNat_add]
              have := g.clint.isLt
              simp only [BitVec.toNat_ofNat] at hw ⊢
              omega
            simp only [List.any_cons, List.any_nil, Bool.or_false, Bool.and_eq_true, decide_eq_true_eq,
              BitVec.le_def, hw', h1] at hm
            omega

/-- C136 (partial): a hart that accepts its first configuration, asking for memory and perhaps a clint, sends
the core's accesses where asked: accesses within the memory to the memory, atomics included, accesses within
the 64 KiB of the clint to the clint, and accesses that touch neither to the system bus. Partial: a clint
asked for at address 0 is not there (`C136_map_violated`). -/
theorem C136_map_partial {socket : BitVec 32 → Bool} {d d' : Dev} {p : List (String × Text)}
    (hf : Fresh d) (h : setConfig socket d p = .ok d') (a : BitVec 64) (n : Nat) (hn : 0 < n)
    (hw : a.toNat + n ≤ 2 ^ 64) :
    Sound p ∧
    (Within a.toNat n (num "memoryBase" p) (num "memorySize" p) →
      route d'.map a (a + BitVec.ofNat 64 n - 1#64) = .to .memory ∧
      route d'.atomics a (a + BitVec.ofNat 64 n - 1#64) = .to .memory) ∧
    (num "clintMMRBase" p ≠ 0 → Within a.toNat n (num "clintMMRBase" p) 0x10000 →
      route d'.map a (a + BitVec.ofNat 64 n - 1#64) = .to .clint) ∧
    (Apart a.toNat n (num "memoryBase" p) (num "memorySize" p) →
      (num "clintMMRBase" p ≠ 0 → Apart a.toNat n (num "clintMMRBase" p) 0x10000) →
      route d'.map a (a + BitVec.ofNat 64 n - 1#64) = .bus) := by
  have hz := (accepted h).2.1
  obtain ⟨e, he, hm, ha⟩ := accepted_map h
  rw [hm, ha]
  obtain ⟨h1, h2, h3⟩ := fresh_map (d := { d with memProfile := profiled d.memProfile p }) hf hz he
  clear hm ha he h
  have eb : (over {} p).base.toNat = num "memoryBase" p := rfl
  have es : (over {} p).size.toNat = num "memorySize" p := rfl
  have ec : (over {} p).clint.toNat = num "clintMMRBase" p := rfl
  have hs : 0 < num "memorySize" p := by
    rw [← es]
    exact Nat.pos_of_ne_zero fun e => hz (BitVec.eq_of_toNat_eq (by simpa using e))
  have ht : ((over {} p).base + (over {} p).size - 1#64).toNat
      = num "memoryBase" p + num "memorySize" p - 1 := by
    rw [last_byte' (by rw [es]; exact hs) h1, eb, es]
  have hl := last_byte_n hn hw
  rw [eb, es] at h1
  have hc0 : (over {} p).clint = 0#64 ↔ num "clintMMRBase" p = 0 := by
    rw [← ec]
    constructor
    · intro e; rw [e]; rfl
    · intro e; exact BitVec.eq_of_toNat_eq (by simpa using e)
  rw [h2]
  rcases h3 with ⟨hc, hm⟩ | ⟨hc, hk, hd, hm⟩
  · rw [hm]
    have hc := hc0.1 hc
    refine ⟨⟨hs, h1, fun k => absurd hc k⟩, ?_, fun k => absurd hc k, ?_⟩
    · intro hi
      unfold Within at hi
      have : (over {} p).base ≤ a ∧ a + BitVec.ofNat 64 n - 1#64 ≤ (over {} p).base + (over {} p).size - 1#64 := by
        rw [BitVec.le_def, BitVec.le_def, ht, hl, eb]; omega
      unfold route
      exact ⟨if_pos this, if_pos this⟩
    · intro hi _
      rw [apart_iff hn hs] at hi
      unfold route
      dsimp only
      rw [if_neg (by rw [BitVec.le_def, BitVec.le_def, ht, hl, eb]; omega),
        if_neg (by rw [BitVec.le_def, BitVec.le_def, ht, hl, eb]; omega)]
      rfl
  · rw [hm]
    have hc : num "clintMMRBase" p ≠ 0 := fun e => hc (hc0.2 e)
    rw [ec, eb, es] at hd
    rw [ec] at hk
    have hct : ((over {} p).clint + 0xffff#64).toNat = num "clintMMRBase" p + 0xffff := by
      rw [BitVec.toNat_add, ec]
      simp only [BitVec.toNat_ofNat]
      omega
    refine ⟨⟨hs, h1, fun _ => ⟨hk, (apart_iff hs (by decide)).2 hd⟩⟩, ?_, ?_, ?_⟩
    · intro hi
      unfold Within at hi
      have : (over {} p).base ≤ a ∧ a + BitVec.ofNat 64 n - 1#64 ≤ (over {} p).base + (over {} p).size - 1#64 := by
        rw [BitVec.le_def, BitVec.le_def, ht, hl, eb]; omega
      unfold route
      exact ⟨if_pos this, if_pos this⟩
    · intro _ hi
      unfold Within at hi
      unfold route
      dsimp only
      rw [if_neg (by rw [BitVec.le_def, BitVec.le_def, ht, hl, eb]; omega),
        if_neg (by rw [BitVec.le_def, BitVec.le_def, ht, hl, eb]; omega)]
      unfold route
      exact if_pos (by rw [BitVec.le_def, BitVec.le_def, hct, hl, ec]; omega)
    · intro hi hj
      have hj := hj hc
      rw [apart_iff hn hs] at hi
      rw [apart_iff hn (by decide)] at hj
      unfold route
      dsimp only
      rw [if_neg (by rw [BitVec.le_def, BitVec.le_def, ht, hl, eb]; omega),
        if_neg (by rw [BitVec.le_def, BitVec.le_def, ht, hl, eb]; omega)]
      unfold route
      dsimp only
      rw [if_neg (by rw [BitVec.le_def, BitVec.le_def, hct, hl, ec]; omega),
        if_neg (by rw [BitVec.le_def, BitVec.le_def, hct, hl, ec]; omega)]
      rfl

theorem addTarget_meets {m : List Range} {q r : Range} (hq : q ∈ m) (h1 : q.base ≤ r.top)
    (h2 : r.base ≤ q.top) : addTarget m r = none := by
  unfold addTarget
  split
  · rfl
  · rw [if_pos]
    rw [List.any_eq_true]
    exact ⟨q, hq, by simp [h1, h2]⟩

/-- C136: a first configuration is accepted when it can be read, what it asks for fits, and no socket is
asked for or one can be opened. -/
theorem C136_accepts (socket : BitVec 32 → Bool) {d : Dev} {p : List (String × Text)} (hf : Fresh d)
    (hl : Legible p) (hs : Sound p) (hk : num "cliPort" p = 0 ∨ ∀ n, socket n = true) :
    ∃ d', setConfig socket d p = .ok d' := by
  obtain ⟨h0, h1, h2⟩ := hs
  have eb : (over {} p).base.toNat = num "memoryBase" p := rfl
  have es : (over {} p).size.toNat = num "memorySize" p := rfl
  have ec : (over {} p).clint.toNat = num "clintMMRBase" p := rfl
  have ht : ((over {} p).base + (over {} p).size - 1#64).toNat
      = num "memoryBase" p + num "memorySize" p - 1 := by
    rw [last_byte' (by rw [es]; exact h0) (by rw [eb, es]; exact h1), eb, es]
  have hz : (over {} p).size ≠ 0#64 := by
    intro e; rw [e] at es; simp at es; omega
  have ha : ∃ e, addTargets { d with memProfile := profiled d.memProfile p } (over {} p) = some e := by
    unfold addTargets
    dsimp only
    rw [hf.1, hf.2, addTarget_nil, if_neg (by rw [BitVec.lt_def]; dsimp only; rw [ht, eb]; omega)]
    dsimp only
    by_cases hc : (over {} p).clint = 0#64
    · rw [if_neg (by simp [hc])]; exact ⟨_, rfl⟩
    · rw [if_pos hc]
      have hc' : num "clintMMRBase" p ≠ 0 := by
        rw [← ec]; intro e; exact hc (BitVec.eq_of_toNat_eq (by simpa using e))
      obtain ⟨h3, h4⟩ := h2 hc'
      rw [apart_iff h0 (by decide)] at h4
      have hct : ((over {} p).clint + 0xffff#64).toNat = num "clintMMRBase" p + 0xffff := by
        rw [BitVec.toNat_add, ec]
        simp only [BitVec.toNat_ofNat]
        omega
      unfold addTarget
      dsimp only
      rw [if_neg (by rw [BitVec.lt_def, hct, ec]; omega), if_neg]
      · exact ⟨_, rfl⟩
      · simp only [List.any_cons, List.any_nil, Bool.or_false, Bool.and_eq_true, decide_eq_true_eq,
          BitVec.le_def, hct, ht, ec, eb]
        omega
  obtain ⟨e, he⟩ := ha
  rw [setConfig_legible socket d hl]
  dsimp only
  rw [if_neg hz, he]
  dsimp only
  by_cases hi : (over {} p).port ≠ 0#32 ∧ (addProfiler e (over {} p)).cli = none
  · rw [if_pos hi]
    rcases hk with hk | hk
    · exfalso
      apply hi.1
      have : value "cliPort" p = none ∨ value "cliPort" p = some 0#64 := by
        unfold num at hk
        cases hv : value "cliPort" p with
        | none => exact .inl rfl
        | some v => rw [hv] at hk; exact .inr (congrArg some (BitVec.eq_of_toNat_eq (by simpa using hk)))
      unfold over
      dsimp only
      rcases this with e | e <;> rw [e] <;> rfl
    · rw [if_pos (hk _)]; exact ⟨_, rfl⟩
  · rw [if_neg hi]; exact ⟨_, rfl⟩

/-- A memory of 256 MiB at address 0x80000000, and a clint at 0x2000000. -/
def usual : List (String × Text) :=
  [("memoryBase", "0x80000000".toList), ("memorySize", "0x10000000".toList),
    ("clintMMRBase", "0x2000000".toList)]

theorem usual_sound : Sound usual := by
  have hb : num "memoryBase" usual = 0x80000000 := by decide +kernel
  have hs : num "memorySize" usual = 0x10000000 := by decide +kernel
  have hc : num "clintMMRBase" usual = 0x2000000 := by decide +kernel
  unfold Sound
  rw [hb, hs, hc]
  exact ⟨by decide, by decide, fun _ => ⟨by decide, (apart_iff (by decide) (by decide)).2 (.inr (by decide))⟩⟩

theorem usual_accepted (socket : BitVec 32 → Bool) : ∃ d, setConfig socket new usual = .ok d :=
  C136_accepts socket ⟨rfl, rfl⟩ (by decide) usual_sound (.inl (by decide))

/-- C136 is violated: asking for the clint at address 0 gives no clint: the core's accesses there go to the
bus, as if none had been asked for. And asking for a clint within the memory is not refused; it ends the
process. -/
theorem C136_map_violated (socket : BitVec 32 → Bool) :
    (∃ d, setConfig socket new [("memoryBase", "0x80000000".toList), ("memorySize", "0x10000000".toList),
        ("clintMMRBase", "0x0".toList)] = .ok d ∧ route d.map 0x4000#64 0x4007#64 = .bus) ∧
    setConfig socket new [("memoryBase", "0x0".toList), ("memorySize", "0x10000000".toList),
      ("clintMMRBase", "0x2000000".toList)] = .abort := by
  refine ⟨⟨_, rfl, by decide +kernel⟩, ?_⟩
  rfl

/-- C136 is violated: whatever has been configured once cannot be configured again: giving a hart the
configuration it has accepted once more, or any other whose memory meets the first, ends the process. -/
theorem C136_again_violated (socket socket' : BitVec 32 → Bool) {d d' : Dev} {p q : List (String × Text)}
    (hf : Fresh d) (h : setConfig socket d p = .ok d') (hq : Legible q) (hs : Sound q)
    (hm : ¬Apart (num "memoryBase" p) (num "memorySize" p) (num "memoryBase" q) (num "memorySize" q)) :
    setConfig socket' d' q = .abort := by
  obtain ⟨hp, hp1, -⟩ := (C136_map_partial hf h 0#64 1 (by decide) (by decide)).1
  have hz := (accepted h).2.1
  obtain ⟨e, he, hm', ha⟩ := accepted_map h
  obtain ⟨h1, h2, -⟩ := fresh_map (d := { d with memProfile := profiled d.memProfile p }) hf hz he
  rw [h2] at ha
  obtain ⟨h0q, h1q, -⟩ := hs
  rw [apart_iff hp h0q] at hm
  have ht : ∀ r : List (String × Text), 0 < num "memorySize" r →
      num "memoryBase" r + num "memorySize" r ≤ 2 ^ 64 →
      ((over {} r).base + (over {} r).size - 1#64).toNat = num "memoryBase" r + num "memorySize" r - 1 :=
    fun r h0 h1 => last_byte' (a := (over {} r).base) (s := (over {} r).size) h0 h1
  have eb : ∀ r, (over {} r).base.toNat = num "memoryBase" r := fun _ => rfl
  have hzq : (over {} q).size ≠ 0#64 := by
    intro e
    have es : (over {} q).size.toNat = num "memorySize" q := rfl
    rw [e] at es; simp at es; omega
  rw [setConfig_legible socket' d' hq]
  dsimp only
  rw [if_neg hzq]
  have : addTargets { d' with memProfile := profiled d'.memProfile q } (over {} q) = none := by
    unfold addTargets
    dsimp only
    rw [ha, addTarget_meets (List.mem_singleton.2 rfl)]
    · rw [BitVec.le_def]
      dsimp only
      rw [ht q h0q h1q, eb]
      omega
    · rw [BitVec.le_def]
      dsimp only
      rw [ht p hp hp1, eb]
      omega
  rw [this]

example (socket : BitVec 32 → Bool) : ∃ d, setConfig socket new usual = .ok d ∧
    setConfig socket d usual = .abort := by
  obtain ⟨d, hd⟩ := usual_accepted socket
  refine ⟨d, hd, C136_again_violated socket socket ⟨rfl, rfl⟩ hd (by decide) usual_sound ?_⟩
  intro h
  exact h 0x80000000 (by unfold Among; decide +kernel)

/-! ## Refused configurations -/

/-- C136 (partial): a refused configuration that asks for neither the memory profiler nor a socket leaves the
hart as it was. Partial: see `C136_refused_violated`. -/
theorem C136_refused_partial {socket : BitVec 32 → Bool} {d d' : Dev} {p : List (String × Text)}
    (h : setConfig socket d p = .refused d') (hm : last "memProfile" p = none)
    (hc : last "cliPort" p = none) : d' = d := by
  have hk := read_kept p d {} hm
  by_cases hl : Legible p
  · have hr := read_legible p d {} hl
    rw [hr] at hk
    have ho : (over {} p).port = 0#32 := by
      unfold over value; rw [hc]; rfl
    rw [setConfig_legible socket d hl] at h
    dsimp only at h hk
    rw [hk] at h
    split at h
    · cases h; rfl
    · split at h
      · cases h
      · rw [if_neg (by rw [ho]; simp)] at h
        cases h
  · have := read_illegible p d {} hl
    unfold setConfig at h
    cases hr : read d {} p with
    | mk a b =>
      rw [hr] at this h hk
      cases this
      cases h
      exact hk

example : setConfig (fun _ => true) new [("memoryBase", "0x80000000".toList)] = .refused new := rfl

/-- C136 is violated: a configuration that is refused for want of a memory size has nevertheless switched the
memory profiler; a setting there is not, and which is only to be logged, is the reason for refusing a
configuration if its value is not a number. -/
theorem C136_refused_violated (socket : BitVec 32 → Bool) :
    (∃ d, setConfig socket new [("memProfile", "1".toList)] = .refused d ∧ new.memProfile = false ∧
      d.memProfile = true) ∧
    setConfig socket new [("memorySize", "0x1000".toList), ("label", "core".toList)] = .refused new :=
  ⟨⟨_, rfl, rfl, rfl⟩, rfl⟩

/-! ## The command line -/

/-- C136 (partial): an accepted configuration asking for a port, or for waiting, by a number below 2^32 gives
a command line on that port, unless there is one already. Partial: see `C136_cli_violated`. -/
theorem C136_cli_partial {socket : BitVec 32 → Bool} {d d' : Dev} {p : List (String × Text)}
    (h : setConfig socket d p = .ok d') (hp : num "cliPort" p < 2 ^ 32) (hw : num "waitForCLI" p < 2 ^ 32) :
    d'.cli = if num "cliPort" p ≠ 0 ∧ d.cli = none then
        some (BitVec.ofNat 32 (num "cliPort" p), decide (num "waitForCLI" p ≠ 0))
      else d.cli := by
  obtain ⟨_, _, e, he, rfl⟩ := accepted h
  obtain ⟨m, a, rfl⟩ := addTargets_keeps he
  unfold setCaches
  dsimp only
  rw [(setStack_map _ _).2.2.2.2.2.2.2.1]
  dsimp only
  have tr : ∀ n, ((Option.map (fun v : BitVec 64 => v.truncate 32) (value n p)).getD 0#32)
      = BitVec.ofNat 32 (num n p) := by
    intro n
    unfold num
    cases value n p with
    | none => rfl
    | some v =>
      apply BitVec.eq_of_toNat_eq
      simp
  have z : ∀ n, num n p < 2 ^ 32 → (BitVec.ofNat 32 (num n p) = 0#32 ↔ num n p = 0) := by
    intro n hn
    constructor
    · intro e
      have := congrArg BitVec.toNat e
      simp only [BitVec.toNat_ofNat] at this
      omega
    · intro e; rw [e]
  have ep : (over {} p).port = BitVec.ofNat 32 (num "cliPort" p) := tr "cliPort"
  have ew : (over {} p).wait = BitVec.ofNat 32 (num "waitForCLI" p) := tr "waitForCLI"
  rw [ep, ew]
  simp only [ne_eq, z _ hp, z _ hw]

/-- C136 is violated: a port, or a request to wait, given by a multiple of 2^32 is as good as none. -/
theorem C136_cli_violated (socket : BitVec 32 → Bool) :
    ∃ d, setConfig socket new [("memorySize", "0x1000".toList), ("cliPort", "0x100000000".toList)] = .ok d ∧
      d.cli = none :=
  ⟨_, rfl, rfl⟩

/-! ## The instruction profile -/

/-- The configuration asks for an instruction profile. -/
def Asks (p : List (String × Text)) : Prop := num "instProfile" p ≠ 0

/-- The history loads an executable. -/
def Loads (h : List Event) : Prop := ∃ f s, Event.load (some f) s ∈ h

theorem coreStore_profiler {d d' : Dev} {a : BitVec 64} {bs : List Byte} (h : coreStore d a bs = some d') :
    d'.profiler = d.profiler ∧ d'.trace = d.trace := by
  unfold coreStore at h
  split at h
  · cases h; exact ⟨rfl, rfl⟩
  · cases h; exact ⟨rfl, rfl⟩
  · cases h; exact ⟨rfl, rfl⟩
  · cases h

theorem read_profiler (p : List (String × Text)) : ∀ (d : Dev) (g : Given),
    (read d g p).1.profiler = d.profiler ∧ (read d g p).1.trace = d.trace := by
  induction p with
  | nil => intro d g; exact ⟨rfl, rfl⟩
  | cons q rest ih =>
    obtain ⟨m, t⟩ := q
    intro d g
    unfold read
    split
    · exact ih _ _
    · split
      · exact ih _ _
      · cases Setup.parseNumber t with
        | none => exact ⟨rfl, rfl⟩
        | some v =>
          dsimp only
          split
          · exact ih _ _
          · exact ih _ _

/-- A configuration once the profiler is there. -/
theorem setConfig_profiler {socket : BitVec 32 → Bool} {d d' : Dev} {p : List (String × Text)}
    (h : setConfig socket d p = .ok d' ∨ setConfig socket d p = .refused d') (hd : d.profiler = true) :
    d'.profiler = true ∧ d'.trace = d.trace := by
  have hr := read_profiler p d {}
  unfold setConfig at h
  cases hx : read d {} p with
  | mk a b =>
    rw [hx] at h hr
    dsimp only at hr
    rw [← hr.2]
    rw [hd] at hr
    cases b with
    | none =>
      dsimp only at h
      rcases h with h | h <;> cases h
      exact ⟨hr.1, rfl⟩
    | some g =>
      dsimp only at h
      split at h
      · rcases h with h | h <;> cases h
        exact ⟨hr.1, rfl⟩
      · cases ha : addTargets a g with
        | none => rw [ha] at h; rcases h with h | h <;> cases h
        | some e =>
          rw [ha] at h
          dsimp only at h
          obtain ⟨m, a', rfl⟩ := addTargets_keeps ha
          have hp : addProfiler { a with map := m, atomics := a' } g = { a with map := m, atomics := a' } := by
            unfold addProfiler
            rw [if_neg (by simp [hr.1])]
          rw [hp] at h
          have fin : ∀ x : Dev, (setCaches (setStack x g) g).profiler = x.profiler ∧
              (setCaches (setStack x g) g).trace = x.trace := by
            intro x
            have := setStack_map x g
            exact ⟨this.2.2.2.2.1, this.2.2.2.2.2.1⟩
          split at h
          · split at h
            · rcases h with h | h <;> cases h
              rw [(fin _).1, (fin _).2]; exact ⟨hr.1, rfl⟩
            · rcases h with h | h <;> cases h
              exact ⟨hr.1, rfl⟩
          · rcases h with h | h <;> cases h
            rw [(fin _).1, (fin _).2]; exact ⟨hr.1, rfl⟩

theorem step_profiler {socket : BitVec 32 → Bool} {d d' : Dev} {e : Event} (h : step socket d e = some d')
    (hd : d.profiler = true) : d'.profiler = true ∧
      (d'.trace = d.trace ∨ (d'.trace = true ∧ ∃ f s, e = .load (some f) s)) := by
  cases e with
  | load f s =>
    cases h
    cases f with
    | none => exact ⟨hd, .inl rfl⟩
    | some f =>
      unfold load
      dsimp only
      cases s <;> simp [hd]
  | config p =>
    unfold step at h
    dsimp only at h
    cases hc : setConfig socket d p with
    | ok x =>
      rw [hc] at h; cases h
      have := setConfig_profiler (.inl hc) hd
      exact ⟨this.1, .inl this.2⟩
    | refused x =>
      rw [hc] at h; cases h
      have := setConfig_profiler (.inr hc) hd
      exact ⟨this.1, .inl this.2⟩
    | abort => rw [hc] at h; cases h
  | write a bs => cases h; exact ⟨hd, .inl rfl⟩
  | store a bs =>
    have := coreStore_profiler h
    exact ⟨by rw [this.1]; exact hd, .inl this.2⟩

theorem run_profiler {socket : BitVec 32 → Bool} (h : List Event) : ∀ {d d' : Dev},
    run socket d h = some d' → d.profiler = true → d'.profiler = true ∧
      (d.trace = true → d'.trace = true) ∧ (Loads h → d'.trace = true) ∧ (¬Loads h → d'.trace = d.trace) := by
  induction h with
  | nil =>
    intro d d' hr hd
    cases hr
    refine ⟨hd, id, ?_, fun _ => rfl⟩
    rintro ⟨f, s, hm⟩
    exact absurd hm List.not_mem_nil
  | cons e h ih =>
    intro d d' hr hd
    unfold run at hr
    cases hs : step socket d e with
    | none => rw [hs] at hr; cases hr
    | some x =>
      rw [hs] at hr
      obtain ⟨h1, h2⟩ := step_profiler hs hd
      obtain ⟨i1, i2, i3, i4⟩ := ih hr h1
      refine ⟨i1, ?_, ?_, ?_⟩
      · intro ht
        rcases h2 with h2 | h2
        · exact i2 (h2.trans ht)
        · exact i2 h2.1
      · rintro ⟨f, s, hm⟩
        rcases List.mem_cons.1 hm with he | he
        · subst he
          apply i2
          have : step socket d (.load (some f) s) = some (load d (some f) s).1 := rfl
          rw [this] at hs
          cases hs
          unfold load
          dsimp only
          cases s <;> simp [hd]
        · exact i3 ⟨f, s, he⟩
      · intro hn
        have hn' : ¬Loads h := fun ⟨f, s, hm⟩ => hn ⟨f, s, List.mem_cons_of_mem _ hm⟩
        rw [i4 hn']
        rcases h2 with h2 | ⟨-, f, s, he⟩
        · exact h2
        · exact absurd ⟨f, s, by rw [he]; exact List.mem_cons_self ..⟩ hn

/-- C136 (partial): when a configuration asking for an instruction profile is accepted by a hart on which
nothing has been loaded, the profile is taken from the moment an executable is loaded, and stays so whatever
happens; and a hart on which one executable is loaded, and which is not asked for a profile, takes none.
Partial: asked for after the executable is loaded, the profile is not taken, and loading twice switches it on
unasked (`C136_profile_violated`). -/
theorem C136_profile_partial {socket : BitVec 32 → Bool} :
    (∀ {d d' d'' : Dev} {p : List (String × Text)} {h : List Event}, d.profiler = false → d.elf = none →
      setConfig socket d p = .ok d' → Asks p → run socket d' h = some d'' →
      (Loads h → d''.trace = true) ∧ (¬Loads h → d''.trace = false)) ∧
    (∀ {d d' : Dev} {f : Image} {s : Bool} {h : List Event}, d.profiler = false →
      run socket (load d (some f) s).1 h = some d' → ¬Loads h → d'.trace = false) := by
  refine ⟨?_, ?_⟩
  · intro d d' d'' p h hd he hc ha hr
    have hq : d'.profiler = true ∧ d'.trace = false := by
      obtain ⟨_, _, e, he', rfl⟩ := accepted hc
      obtain ⟨m, a, rfl⟩ := addTargets_keeps he'
      have hp : (over {} p).profile = true := by
        unfold Asks num at ha
        unfold over
        dsimp only
        cases hv : value "instProfile" p with
        | none => rw [hv] at ha; exact absurd rfl ha
        | some v =>
          rw [hv] at ha
          simp only [Option.map_some, Option.getD_some, decide_eq_true_eq]
          intro e; rw [e] at ha; exact ha rfl
      have hx : addProfiler { d with memProfile := profiled d.memProfile p, map := m, atomics := a }
          (over {} p) =
          { { d with memProfile := profiled d.memProfile p, map := m, atomics := a } with
            profiler := true, trace := false } := by
        unfold addProfiler
        rw [if_pos (by simp [hp, hd])]
        simp [he]
      rw [hx]
      unfold setCaches
      dsimp only
      rw [(setStack_map _ _).2.2.2.2.1, (setStack_map _ _).2.2.2.2.2.1]
      exact ⟨rfl, rfl⟩
    obtain ⟨_, _, h3, h4⟩ := run_profiler h hr hq.1
    exact ⟨h3, fun hn => (h4 hn).trans hq.2⟩
  · intro d d' f s h hd hr hn
    have hq : (load d (some f) s).1.profiler = true ∧ (load d (some f) s).1.trace = false := by
      unfold load
      dsimp only
      cases s <;> simp [hd]
    obtain ⟨_, _, _, h4⟩ := run_profiler h hr hq.1
    exact (h4 hn).trans hq.2

example : ∃ d d', setConfig (fun _ => true) new [("memorySize", "0x1000".toList),
      ("instProfile", "1".toList)] = .ok d ∧
    run (fun _ => true) d [.load (some ⟨[], none, none, none⟩) false] = some d' ∧ d'.trace = true :=
  ⟨_, _, rfl, rfl, rfl⟩

/-- C136 is violated: a hart that loads its executable first and is then asked for an instruction profile
takes none; one that loads twice, the symbols and then the program, and is not asked for any, takes one. -/
theorem C136_profile_violated (socket : BitVec 32 → Bool) (f : Image) :
    (∃ d, run socket new [.load (some f) false, .config [("memorySize", "0x1000".toList),
      ("instProfile", "1".toList)]] = some d ∧ d.trace = false) ∧
    (∃ d, run socket new [.load (some f) true, .load (some f) false] = some d ∧ d.trace = true) := by
  refine ⟨?_, ⟨_, rfl, rfl⟩⟩
  have hs : Sound [("memorySize", "0x1000".toList), ("instProfile", "1".toList)] := by
    have hb : num "memoryBase" [("memorySize", "0x1000".toList), ("instProfile", "1".toList)] = 0 := by
      decide +kernel
    have hs : num "memorySize" [("memorySize", "0x1000".toList), ("instProfile", "1".toList)] = 0x1000 := by
      decide +kernel
    have hc : num "clintMMRBase" [("memorySize", "0x1000".toList), ("instProfile", "1".toList)] = 0 := by
      decide +kernel
    unfold Sound
    rw [hb, hs, hc]
    exact ⟨by decide, by decide, fun h => absurd rfl h⟩
  obtain ⟨d, hd⟩ := C136_accepts socket (d := (load new (some f) false).1) ⟨rfl, rfl⟩ (by decide) hs
    (.inl (by decide))
  have hr : run socket new [.load (some f) false, .config [("memorySize", "0x1000".toList),
      ("instProfile", "1".toList)]] = some d := by
    show (match (match setConfig socket (load new (some f) false).1 [("memorySize", "0x1000".toList),
      ("instProfile", "1".toList)] with
      | .ok d => some d
      | .refused d => some d
      | .abort => none) with
      | some d => run socket d []
      | none => none) = some d
    rw [hd]
    rfl
  refine ⟨d, hr, ?_⟩
  exact (setConfig_profiler (.inl hd) rfl).2.trans rfl

/-- C136 is violated: a hart configured before its executable is loaded does not start with the stack the
executable describes. -/
theorem C136_stack_violated (socket : BitVec 32 → Bool) :
    ∃ d d', run socket new [.config [("memorySize", "0x100000".toList)],
        .load (some ⟨[], some 0x8000#64, none, none⟩) false] = some d ∧ d.sp = none ∧
      run socket new [.load (some ⟨[], some 0x8000#64, none, none⟩) false,
        .config [("memorySize", "0x100000".toList)]] = some d' ∧ d'.sp = some 0x10000#64 :=
  ⟨_, _, rfl, rfl, rfl, rfl⟩

/-! ## The memory -/

/-- The writings a history makes to the memory at `[base, base + size)`, the latest first. The core's stores
count when they lie in it; those of Renode and the loader always do. -/
def writings (base size : Nat) : List Event → List Writing
  | [] => []
  | e :: h => writings base size h ++ match e with
    | .load (some f) false => (f.segments.map fun s => ⟨s.1, s.2⟩).reverse
    | .load _ _ => []
    | .config _ => []
    | .write a bs => [⟨a, bs⟩]
    | .store a bs => if base ≤ a.toNat ∧ a.toNat + bs.length ≤ base + size then [⟨a, bs⟩] else []

/-- No configuration, and every store of the core has at least one byte, does not wrap around and lies in
the memory or outside. -/
def Plain (base size : Nat) (h : List Event) : Prop :=
  ∀ e ∈ h, match e with
    | .config _ => False
    | .store a bs => bs ≠ [] ∧ a.toNat + bs.length ≤ 2 ^ 64 ∧
      (Within a.toNat bs.length base size ∨ Apart a.toNat bs.length base size)
    | _ => True

theorem byteAt_append (x : BitVec 64) (b : BitVec 8) (u v : List Writing) :
    byteAt x b (u ++ v) = byteAt x (byteAt x b v) u := by
  induction u with
  | nil => rfl
  | cons w u ih => simp only [List.cons_append, byteAt, ih]

theorem write_byte (m : BitVec 64 → Byte) (a : BitVec 64) (bs : List Byte) (x : BitVec 64) :
    write m a bs x = byteAt x (m x) [⟨a, bs⟩] := by
  unfold write byteAt byteAt
  dsimp only
  split
  · rename_i b hb
    obtain ⟨h, rfl⟩ := List.getElem?_eq_some_iff.1 hb
    rw [dif_pos h]
  · rename_i hb
    rw [List.getElem?_eq_none_iff] at hb
    rw [dif_neg (by omega)]

theorem write_segments (x : BitVec 64) (ss : List (BitVec 64 × List Byte)) : ∀ m : BitVec 64 → Byte,
    (ss.foldl (fun m s => write m s.1 s.2) m) x =
      byteAt x (m x) (ss.map fun s => (⟨s.1, s.2⟩ : Writing)).reverse := by
  induction ss with
  | nil => intro m; rfl
  | cons s ss ih =>
    intro m
    rw [List.foldl_cons, ih, List.map_cons, List.reverse_cons, byteAt_append, write_byte]

theorem route_to {m : List Range} {a b : BitVec 64} {t : Target} (h : route m a b = .to t) :
    ∃ r ∈ m, r.target = t ∧ r.base ≤ a ∧ b ≤ r.top := by
  induction m with
  | nil => cases h
  | cons r m ih =>
    unfold route at h
    split at h
    · rename_i hr
      cases h
      exact ⟨r, List.mem_cons_self .., rfl, hr⟩
    · split at h
      · cases h
      · obtain ⟨q, hq, hh⟩ := ih h
        exact ⟨q, List.mem_cons_of_mem _ hq, hh⟩

/-- The map sends to the memory what lies within `[base, base + size)`, and nothing that lies outside. -/
def Maps (m : List Range) (base size : Nat) : Prop :=
  ∀ (a : BitVec 64) (n : Nat), 0 < n → a.toNat + n ≤ 2 ^ 64 →
    (Within a.toNat n base size → route m a (a + BitVec.ofNat 64 n - 1#64) = .to .memory) ∧
    (Apart a.toNat n base size → route m a (a + BitVec.ofNat 64 n - 1#64) ≠ .to .memory)

theorem maps_accepted {socket : BitVec 32 → Bool} {d d' : Dev} {p : List (String × Text)} (hf : Fresh d)
    (h : setConfig socket d p = .ok d') : Maps d'.map (num "memoryBase" p) (num "memorySize" p) := by
  intro a n hn hw
  have hp := C136_map_partial hf h a n hn hw
  refine ⟨fun hi => (hp.2.1 hi).1, ?_⟩
  intro hi hc
  obtain ⟨hs, h1, -⟩ := hp.1
  obtain ⟨r, hr, ht, hb, hu⟩ := route_to hc
  have hz := (accepted h).2.1
  obtain ⟨e, he, hm, ha⟩ := accepted_map h
  obtain ⟨-, -, h3⟩ := fresh_map (d := { d with memProfile := profiled d.memProfile p }) hf hz he
  have hr' : r = ⟨(over {} p).base, (over {} p).base + (over {} p).size - 1#64, .memory⟩ := by
    rw [hm] at hr
    rcases h3 with ⟨-, h3⟩ | ⟨-, -, -, h3⟩
    · rw [h3] at hr; exact List.mem_singleton.1 hr
    · rw [h3] at hr
      rcases List.mem_cons.1 hr with e | e
      · exact e
      · rw [List.mem_singleton.1 e] at ht; cases ht
  rw [hr'] at hb hu
  have eb : (over {} p).base.toNat = num "memoryBase" p := rfl
  have et : ((over {} p).base + (over {} p).size - 1#64).toNat
      = num "memoryBase" p + num "memorySize" p - 1 :=
    last_byte' (a := (over {} p).base) (s := (over {} p).size) hs h1
  rw [BitVec.le_def] at hb hu
  dsimp only at hb hu
  rw [et, last_byte_n hn hw] at hu
  rw [eb] at hb
  rw [apart_iff hn hs] at hi
  omega

theorem step_bytes {socket : BitVec 32 → Bool} {base size : Nat} {d d' : Dev} {e : Event}
    (hm : Maps d.map base size) (hp : Plain base size [e]) (h : step socket d e = some d') :
    d'.map = d.map ∧ ∀ x, d'.bytes x = byteAt x (d.bytes x) (writings base size [e]) := by
  have hp := hp e (List.mem_cons_self ..)
  cases e with
  | load f s =>
    cases h
    cases f with
    | none => exact ⟨rfl, fun _ => rfl⟩
    | some f =>
      unfold load
      dsimp only
      cases s
      · refine ⟨by cases d.profiler <;> simp, fun x => ?_⟩
        have : (writings base size [.load (some f) false])
            = (f.segments.map fun s => (⟨s.1, s.2⟩ : Writing)).reverse := rfl
        rw [this, ← write_segments]
        cases d.profiler <;> simp [writings, byteAt]
      · refine ⟨by cases d.profiler <;> simp, fun x => ?_⟩
        cases d.profiler <;> simp [writings, byteAt]
  | config p => exact absurd hp id
  | write a bs =>
    cases h
    exact ⟨rfl, fun x => write_byte d.bytes a bs x⟩
  | store a bs =>
    obtain ⟨h0, h1, h2⟩ := hp
    have hn : 0 < bs.length := List.length_pos_iff.2 h0
    obtain ⟨m1, m2⟩ := hm a bs.length hn h1
    have h : coreStore d a bs = some d' := h
    unfold coreStore at h
    have hws : writings base size [.store a bs] =
        if base ≤ a.toNat ∧ a.toNat + bs.length ≤ base + size then [⟨a, bs⟩] else [] := rfl
    rw [hws]
    rcases h2 with h2 | h2
    · rw [m1 h2] at h
      cases h
      unfold Within at h2
      rw [if_pos h2]
      exact ⟨rfl, fun x => write_byte d.bytes a bs x⟩
    · have hne := m2 h2
      have hout : ¬(base ≤ a.toNat ∧ a.toNat + bs.length ≤ base + size) := by
        intro hi
        have := h2 a.toNat
        unfold Among at this
        omega
      rw [if_neg hout]
      split at h
      · rename_i hr; exact absurd hr hne
      · cases h; exact ⟨rfl, fun _ => rfl⟩
      · cases h; exact ⟨rfl, fun _ => rfl⟩
      · cases h

theorem run_bytes {socket : BitVec 32 → Bool} {base size : Nat} (h : List Event) : ∀ {d d' : Dev},
    Maps d.map base size → Plain base size h → run socket d h = some d' →
    d'.map = d.map ∧ ∀ x, d'.bytes x = byteAt x (d.bytes x) (writings base size h) := by
  induction h with
  | nil => intro d d' _ _ hr; cases hr; exact ⟨rfl, fun _ => rfl⟩
  | cons e h ih =>
    intro d d' hm hp hr
    unfold run at hr
    cases hs : step socket d e with
    | none => rw [hs] at hr; cases hr
    | some x =>
      rw [hs] at hr
      obtain ⟨h1, h2⟩ := step_bytes hm
        (fun e' he => hp e' (by rw [List.mem_singleton.1 he]; exact List.mem_cons_self ..)) hs
      obtain ⟨i1, i2⟩ := ih (d := x) (by rw [h1]; exact hm)
        (fun e' he => hp e' (List.mem_cons_of_mem _ he)) hr
      refine ⟨i1.trans h1, fun y => ?_⟩
      rw [i2 y, h2 y, ← byteAt_append]
      rfl

/-- C136 (partial): once the hart is configured, whatever Renode, the loader and the core write to the memory
in whatever order, Renode and the core both read, at every address of the memory, the byte written there
last. Partial: what Renode or the loader write outside the memory the core does not see
(`C136_beyond_violated`). -/
theorem C136_memory_partial {socket : BitVec 32 → Bool} {d d' d'' : Dev} {p : List (String × Text)}
    {h : List Event} (hf : Fresh d) (hc : setConfig socket d p = .ok d')
    (hp : Plain (num "memoryBase" p) (num "memorySize" p) h) (hr : run socket d' h = some d'')
    (a : BitVec 64) (n : Nat) (hn : 0 < n) (hw : a.toNat + n ≤ 2 ^ 64)
    (hi : Within a.toNat n (num "memoryBase" p) (num "memorySize" p)) :
    let expected := (List.range n).map fun i =>
      byteAt (a + BitVec.ofNat 64 i) (d.bytes (a + BitVec.ofNat 64 i))
        (writings (num "memoryBase" p) (num "memorySize" p) h)
    coreLoad d'' a n = some expected ∧ readMemory d'' a n = expected := by
  intro expected
  have hm := maps_accepted hf hc
  obtain ⟨h1, h2⟩ := run_bytes h hm hp hr
  have hb : d'.bytes = d.bytes := (C136_configured hc).2.2.2.2.2.2.2.2.1
  have he : (List.range n).map (fun i => d''.bytes (a + BitVec.ofNat 64 i)) = expected := by
    apply List.map_congr_left
    intro i _
    rw [h2, hb]
  constructor
  · unfold coreLoad
    rw [h1, (hm a n hn hw).1 hi]
    dsimp only
    rw [he]
  · exact he

/-- The loader writes four bytes, the core overwrites two of them, Renode one of those; the core reads the
last of each. -/
example : ∃ d d', setConfig (fun _ => true) new usual = .ok d ∧
    run (fun _ => true) d [.load (some ⟨[(0x80000000#64, [1#8, 2#8, 3#8, 4#8])], none, none, none⟩) false,
      .store 0x80000001#64 [5#8, 6#8], .write 0x80000002#64 [7#8]] = some d' ∧
    coreLoad d' 0x80000000#64 4 = some [1#8, 5#8, 7#8, 4#8] := ⟨_, _, rfl, rfl, by decide +kernel⟩

/-- C136 is violated: what Renode or the loader write where there is no memory is taken without complaint and
can be read back by Renode, but the core's loads there go elsewhere. -/
theorem C136_beyond_violated (socket : BitVec 32 → Bool) :
    ∃ d d', setConfig socket new usual = .ok d ∧
      run socket d [.load (some ⟨[(0x1000#64, [0x13#8])], none, none, none⟩) false] = some d' ∧
      readMemory d' 0x1000#64 1 = [0x13#8] ∧ coreLoad d' 0x1000#64 1 = none :=
  ⟨_, _, rfl, rfl, by decide +kernel, by decide +kernel⟩

end Verif.Renode
