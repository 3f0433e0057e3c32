import Verif.Decode.Apart

/-!
# C59: no word matches two instructions of one decoder

The statement is about every 32 bit word (16 bit words for the compressed
decoders, which are among them).  It holds for the decoders without listed
overlaps (`C59_unambiguous`), and up to the listed pairs for the others
(`C59_unambiguous_partial`).  Every listed pair does share a word
(`C59_overlaps_violated`), so the list cannot be shortened.
-/

namespace Verif.Decode

open Verif.BinFmt

/-- The overlaps between an earlier and a later group of a list. -/
def overlapsIn : List Grp → List (Op × Op)
  | [] => []
  | g :: gs => overlapsOf g g ++ (gs.flatMap (overlapsOf g) ++ overlapsIn gs)

/-- Pairs of different instructions of a decoder that share a word. -/
def Decoder.overlaps (d : Decoder) : List (Op × Op) := overlapsIn d.groups

theorem Excl.mono {k k' : List (Op × Op)} (h : ∀ p ∈ k, p ∈ k') {w : Nat} {a b : Inst}
    (he : Excl k w a b) : Excl k' w a b := fun ha hb => h _ (he ha hb)

theorem flatMap_pairwise {w : Nat} (hw : w < 2 ^ 32) :
    ∀ {gs : List Grp}, gs.Pairwise (fun g h => crossOk g h = true) →
      (gs.flatMap Grp.insts).Pairwise (Excl (overlapsIn gs) w)
  | [], _ => by simp
  | g :: gs, h => by
    rw [List.pairwise_cons] at h
    rw [List.flatMap_cons, List.pairwise_append]
    refine ⟨?_, ?_, ?_⟩
    · refine List.Pairwise.imp ?_ (selfOk_sound (self_all g) hw)
      intro a b
      exact Excl.mono (fun p hp => List.mem_append_left _ hp)
    · refine List.Pairwise.imp ?_ (flatMap_pairwise hw h.2)
      intro a b
      exact Excl.mono (fun p hp => List.mem_append_right _ (List.mem_append_right _ hp))
    · intro a ha b hb
      obtain ⟨g', hg', hb⟩ := List.mem_flatMap.1 hb
      refine Excl.mono ?_ (crossOk_sound (h.1 g' hg') hw a ha b hb)
      intro p hp
      exact List.mem_append_right _ (List.mem_append_left _ (List.mem_flatMap.2 ⟨g', hg', hp⟩))

/-- **C59** (all decoders, up to the listed overlaps).  Whichever two entries
of a decoder are taken, no word matches both unless the pair is listed. -/
theorem C59_unambiguous_partial (d : Decoder) (w : Nat) (hw : w < 2 ^ 32) :
    d.insts.Pairwise fun a b =>
      a.matches w = true → b.matches w = true → (a.op, b.op) ∈ d.overlaps :=
  flatMap_pairwise hw (pairs_all d)

/-- **C59**, in full, for each decoder without overlaps: at most one entry
matches a word. -/
theorem C59_unambiguous (d : Decoder) (hd : d.overlaps = []) (w : Nat) (hw : w < 2 ^ 32) :
    d.insts.Pairwise fun a b => ¬(a.matches w = true ∧ b.matches w = true) := by
  refine List.Pairwise.imp ?_ (C59_unambiguous_partial d w hw)
  intro a b h hab
  have := h hab.1 hab.2
  rw [hd] at this
  simp at this

/-- The decoders meant by `C59_unambiguous`: all of the compressed decoders
but the one of RVM23, Zfh and Zvbb. -/
theorem C59_unambiguous_decoders (d : Decoder) :
    d.overlaps = [] ↔ d ∈ ([.rv32g_16, .rv32gzb_16, .rv32gv_16, .rv32gvzb_16, .rv64g_16,
      .rv64gzb_16, .rv64gv_16, .rv64gvzb_16, .zfh32_32, .zfh64_32, .zvbb_32] : List Decoder) := by
  cases d <;> decide +kernel

/-- The instructions of a group listed under a name. -/
def Grp.named (g : Grp) (o : Op) (w : Nat) : Bool :=
  g.insts.any fun i => decide (i.op = o) && i.matches w

/-- The words listed with the overlaps do match both. -/
def witnessOk (g h : Grp) : Bool :=
  (clashes g h).all fun p => decide (p.1 ≠ p.2.1) && (g.named p.1 p.2.2 && h.named p.2.1 p.2.2)

theorem witnessOk_all (d : Decoder) :
    (d.groups.all fun g => d.groups.all fun h => witnessOk g h) = true := by
  cases d <;> decide +kernel

theorem mem_overlapsIn {p : Op × Op} : ∀ {gs : List Grp}, p ∈ overlapsIn gs →
    ∃ g ∈ gs, ∃ h ∈ gs, p ∈ overlapsOf g h
  | [], hp => by simp [overlapsIn] at hp
  | g :: gs, hp => by
    have hp : p ∈ overlapsOf g g ++ (gs.flatMap (overlapsOf g) ++ overlapsIn gs) := hp
    rcases List.mem_append.1 hp with hp | hp
    · exact ⟨g, by simp, g, by simp, hp⟩
    · rcases List.mem_append.1 hp with hp | hp
      · obtain ⟨h, hh, hp⟩ := List.mem_flatMap.1 hp
        exact ⟨g, by simp, h, List.mem_cons_of_mem _ hh, hp⟩
      · obtain ⟨a, ha, b, hb, hp⟩ := mem_overlapsIn hp
        exact ⟨a, List.mem_cons_of_mem _ ha, b, List.mem_cons_of_mem _ hb, hp⟩

theorem named_mem {g : Grp} {o : Op} {w : Nat} (h : g.named o w = true) :
    ∃ i ∈ g.insts, i.op = o ∧ i.matches w = true := by
  unfold Grp.named at h
  obtain ⟨i, hi, h⟩ := List.any_eq_true.1 h
  rw [Bool.and_eq_true] at h
  exact ⟨i, hi, by simpa using h.1, h.2⟩

/-- **C59** is violated: every listed pair of a decoder consists of two
different instructions of that decoder that match a common word. -/
theorem C59_overlaps_violated (d : Decoder) (p : Op × Op) (hp : p ∈ d.overlaps) :
    p.1 ≠ p.2 ∧ ∃ w, ∃ a ∈ d.insts, ∃ b ∈ d.insts,
      a.op = p.1 ∧ b.op = p.2 ∧ a.matches w = true ∧ b.matches w = true := by
  obtain ⟨g, hg, h, hh, hp⟩ := mem_overlapsIn hp
  unfold overlapsOf at hp
  obtain ⟨q, hq, rfl⟩ := List.mem_map.1 hp
  have hw := List.all_eq_true.1 (List.all_eq_true.1 (witnessOk_all d) g hg) h hh
  unfold witnessOk at hw
  have hw := List.all_eq_true.1 hw q hq
  rw [Bool.and_eq_true, Bool.and_eq_true] at hw
  obtain ⟨a, ha, ha1, ha2⟩ := named_mem hw.2.1
  obtain ⟨b, hb, hb1, hb2⟩ := named_mem hw.2.2
  exact ⟨by simpa using hw.1, q.2.2, a, List.mem_flatMap.2 ⟨g, hg, ha⟩, b,
    List.mem_flatMap.2 ⟨h, hh, hb⟩, ha1, hb1, ha2, hb2⟩

/-- **C59** is violated on RV64: the canonical `nop` (0x00000013) is both
`addi` and `nop`; and on RVM23: `fence.i` with immediate 16 is also `pause`, and
`csrrw` of CSR 0x81f is also `mop.rr.0`. -/
theorem C59_words_violated :
    (∃ a ∈ Decoder.insts .rv64g_32, ∃ b ∈ Decoder.insts .rv64g_32,
      a.op = .addi ∧ b.op = .nop ∧ a.matches 0x13 = true ∧ b.matches 0x13 = true) ∧
    (∃ a ∈ Decoder.insts .rvm23_32, ∃ b ∈ Decoder.insts .rvm23_32,
      a.op = .fencei ∧ b.op = .pause ∧
        a.matches 0x0100100f = true ∧ b.matches 0x0100100f = true) ∧
    (∃ a ∈ Decoder.insts .rvm23_32, ∃ b ∈ Decoder.insts .rvm23_32,
      a.op = .csrrw ∧ b.op = .mop_rr_0 ∧
        a.matches 0x83ff9ff3 = true ∧ b.matches 0x83ff9ff3 = true) := by
  refine ⟨?_, ?_, ?_⟩
  · have h : (Grp.riscv64g_RiscVGInstBase32.named .addi 0x13 &&
        Grp.riscv64g_RiscVGInstBase32.named .nop 0x13) = true := by decide +kernel
    rw [Bool.and_eq_true] at h
    obtain ⟨a, ha, ha1, ha2⟩ := named_mem h.1
    obtain ⟨b, hb, hb1, hb2⟩ := named_mem h.2
    exact ⟨a, List.mem_flatMap.2 ⟨_, by decide, ha⟩, b, List.mem_flatMap.2 ⟨_, by decide, hb⟩,
      ha1, hb1, ha2, hb2⟩
  · have h : (Grp.riscv32g_RiscVZifenceiInst32.named .fencei 0x0100100f &&
        Grp.riscv_zhintpause_RiscVZhintpause.named .pause 0x0100100f) = true := by decide +kernel
    rw [Bool.and_eq_true] at h
    obtain ⟨a, ha, ha1, ha2⟩ := named_mem h.1
    obtain ⟨b, hb, hb1, hb2⟩ := named_mem h.2
    exact ⟨a, List.mem_flatMap.2 ⟨_, by decide, ha⟩, b, List.mem_flatMap.2 ⟨_, by decide, hb⟩,
      ha1, hb1, ha2, hb2⟩
  · have h : (Grp.riscv32g_RiscVZicsrInst32.named .csrrw 0x83ff9ff3 &&
        Grp.riscv_zimop_RiscVZimop.named .mop_rr_0 0x83ff9ff3) = true := by decide +kernel
    rw [Bool.and_eq_true] at h
    obtain ⟨a, ha, ha1, ha2⟩ := named_mem h.1
    obtain ⟨b, hb, hb1, hb2⟩ := named_mem h.2
    exact ⟨a, List.mem_flatMap.2 ⟨_, by decide, ha⟩, b, List.mem_flatMap.2 ⟨_, by decide, hb⟩,
      ha1, hb1, ha2, hb2⟩

/-- `C59_unambiguous_partial` is about words that do decode: `add x1, x2, x3`
is matched by exactly the one entry. -/
example : ((Decoder.insts .rv32gvzb_32).filter fun i => i.matches 0x003100b3).map (·.op)
    = [.add] := by decide +kernel

/-- A compressed word, `c.addi x8, 1`, and a vector one, `vadd.vv v1, v2, v3`. -/
example : ((Decoder.insts .rv64g_16).filter fun i => i.matches 0x0405).map (·.op)
    = [.caddi] := by decide +kernel
example : ((Decoder.insts .rv64gv_32).filter fun i => i.matches 0x022180d7).map (·.op)
    = [.vadd_vv] := by decide +kernel

end Verif.Decode
