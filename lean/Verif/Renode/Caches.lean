import Verif.Renode.Props

/-!
# C136: caches that are configured again
-/

namespace Verif.Renode

/-- **C136** fails for caches: one that is there keeps its configuration, whatever an accepted one asks
for. -/
theorem C136_cache_violated {socket : BitVec 32 → Bool} {d d' : Dev} {p : List (String × Text)}
    (h : setConfig socket d p = .ok d') :
    (∀ t, d.icache = some t → d'.icache = some t) ∧ (∀ t, d.dcache = some t → d'.dcache = some t) := by
  obtain ⟨_, _, e, he, rfl⟩ := accepted h
  obtain ⟨m, a, rfl⟩ := addTargets_keeps he
  obtain ⟨b, t, hb⟩ := addProfiler_keeps
    { d with memProfile := profiled d.memProfile p, map := m, atomics := a } (over {} p)
  rw [hb]
  have k : ∀ (c : Option Text) (t u : Text), c = some t → setCache c u = some t := by
    rintro _ t u rfl
    unfold setCache
    split <;> rfl
  refine ⟨fun t ht => ?_, fun t ht => ?_⟩
  · unfold setCaches
    dsimp only
    rw [(setStack_map _ _).2.2.2.2.2.2.2.2.1]
    split <;> exact k _ _ _ ht
  · unfold setCaches
    dsimp only
    rw [(setStack_map _ _).2.2.2.2.2.2.2.2.2]
    split <;> exact k _ _ _ ht

/-- A memory with an instruction cache, and another one with another cache. -/
def cached (base text : String) : List (String × Text) :=
  [("memoryBase", base.toList), ("memorySize", "0x1000".toList), ("iCache", text.toList)]

def isOk : Result → Option Dev
  | .ok d => some d
  | _ => none

/-- The second configuration is accepted, and its cache is not the one there is. -/
example : ((isOk (setConfig (fun _ => true) new (cached "0x1000" "1k"))).bind fun d =>
      (isOk (setConfig (fun _ => true) d (cached "0x8000" "4k"))).map fun d' => d'.icache) =
    some (some "1k".toList) := by decide +kernel

/-! ## The memory behind the data cache -/

/-- A pointer to a memory: the one the core was built with, or the data cache. -/
inductive Port where
  | memory
  | cache
  deriving DecidableEq

/-- `RiscVState::memory_` and the memory behind the data cache. -/
structure Ports where
  front : Port
  behind : Option Port

/-- As the constructor leaves them (riscv_renode.cc:92-174). -/
def ports : Ports := ⟨.memory, none⟩

/-- What `SetConfig` does with the setting of the data cache (riscv_renode.cc:560-570). -/
def hook (f : Ports) (text : Text) : Ports :=
  if text.isEmpty then f else ⟨.cache, some f.front⟩

/-- An access through the pointer gets to the memory the core was built with: the cache hands it on
(mpact-sim). -/
inductive Arrives (f : Ports) : Port → Prop where
  | memory : Arrives f .memory
  | cache (p : Port) (h : f.behind = some p) (ha : Arrives f p) : Arrives f .cache

theorem loops {f : Ports} (h : f.behind = some .cache) {p : Port} (ha : Arrives f p) : p = .memory := by
  induction ha with
  | memory => rfl
  | cache p hp _ ih =>
    rw [h] at hp
    obtain rfl := Option.some.inj hp
    cases ih

/-- The settings of the data cache that are not empty. -/
def asked (texts : List Text) : Nat := (texts.filter fun t => !t.isEmpty).length

theorem hooks (texts : List Text) (f : Ports) :
    (asked texts = 0 → texts.foldl hook f = f) ∧
    (asked texts = 1 → texts.foldl hook f = ⟨.cache, some f.front⟩) ∧
    (2 ≤ asked texts → texts.foldl hook f = ⟨.cache, some .cache⟩) := by
  induction texts generalizing f with
  | nil =>
    have e : asked [] = 0 := rfl
    exact ⟨fun _ => rfl, fun h => by omega, fun h => by omega⟩
  | cons t ts ih =>
    rw [List.foldl_cons]
    cases ht : t.isEmpty with
    | true =>
      have e : asked (t :: ts) = asked ts := by unfold asked; rw [List.filter_cons_of_neg (by rw [ht]; decide)]
      have k : hook f t = f := if_pos ht
      rw [e, k]
      exact ih f
    | false =>
      have e : asked (t :: ts) = asked ts + 1 := by
        unfold asked
        rw [List.filter_cons_of_pos (by rw [ht]; rfl), List.length_cons]
      have k : hook f t = ⟨.cache, some f.front⟩ := if_neg (by rw [ht]; decide)
      rw [e, k]
      obtain ⟨h0, h1, h2⟩ := ih ⟨.cache, some f.front⟩
      refine ⟨fun h => by omega, fun h => h0 (by omega), fun h => ?_⟩
      by_cases h' : asked ts = 1
      · exact h1 h'
      · exact h2 (by omega)

/-- **C136**: with at most one configuration that asks for a data cache the core's accesses get to its
memory.  Partial: see `C136_twice_violated`. -/
theorem C136_reaches_partial (texts : List Text) (h : asked texts ≤ 1) :
    Arrives (texts.foldl hook ports) (texts.foldl hook ports).front := by
  obtain ⟨h0, h1, _⟩ := hooks texts ports
  by_cases he : asked texts = 0
  · rw [h0 he]; exact .memory
  · rw [h1 (by omega)]; exact .cache _ rfl .memory

/-- **C136** fails when a data cache is asked for twice: the cache becomes its own memory, and no access
of the core gets to the memory. -/
theorem C136_twice_violated (texts : List Text) (h : 2 ≤ asked texts) :
    ¬ Arrives (texts.foldl hook ports) (texts.foldl hook ports).front := by
  rw [(hooks texts ports).2.2 h]
  intro ha
  exact absurd (loops rfl ha) (by decide)

example : asked ["".toList, "1k".toList] ≤ 1 ∧ 2 ≤ asked ["1k".toList, "".toList, "4k".toList] := by decide

end Verif.Renode
