import Verif.Shell.Special
/-
Proof infrastructure for the command shell: `vreg get`.
-/
namespace Verif.Shell
open Spec (tokens tokensFrom)

def rdTail : Re :=
  .seq gap (.seq dname (.seq (.opt (.seq (.opt (.seq ws (.seq (k ":") num)))
    (.opt (.seq gap (.opt fw))))) ws))

theorem rdVreg_eq : rdVregRe =
    .seq ws (.seq (k "vreg") (.seq (.opt (.seq gap (k "get"))) rdTail)) := rfl

/-- What the end of the line can hold: a blank tail, or a format. -/
theorem lang_fwTail (Z w : Text) (cz : Caps) (h : Lang (.opt (.seq gap (.opt fw))) Z cz) (hw : Blank w) :
    Edge (Z ++ w) ∧ ((tokens (Z ++ w) = [] ∧ cz = [none, none]) ∨
      ∃ f, tokens (Z ++ w) = [f] ∧ isFw f = true ∧ cz = [some (f.take 1), some (f.drop 1)]) := by
  rcases h with ⟨g, f, _, cf, rfl, rfl, ⟨hg0, hg, rfl⟩, hf⟩ | ⟨rfl, rfl⟩
  · rcases hf with hf | ⟨rfl, rfl⟩
    · obtain ⟨hq, rfl⟩ := (is_fw f cf).mp hf
      exact ⟨by rw [List.append_assoc]; exact edge_gap hg hg0,
        .inr ⟨f, tokens_one g f w hg (fw_solid f hq) hw, hq, rfl⟩⟩
    · have hb : Blank (g ++ [] ++ w) := by rw [List.append_nil]; exact blank_append hg hw
      exact ⟨edge_of_blank hb, .inl ⟨tokens_blank _ hb, rfl⟩⟩
  · exact ⟨edge_of_blank hw, .inl ⟨tokens_blank _ hw, rfl⟩⟩

/-- A register's name, its index if there is a colon, and the rest. -/
inductive RdForm (rest : Text) (c : Caps) : Prop
  | plain (n : Text) (ts : List Text) (cz : Caps) : tokens rest = n :: ts → isDname n = true →
      ((ts = [] ∧ cz = [none, none]) ∨
        ∃ f, ts = [f] ∧ isFw f = true ∧ cz = [some (f.take 1), some (f.drop 1)]) →
      c = some n :: none :: cz → RdForm rest c
  | index (A B n i : Text) (ts : List Text) (cz : Caps) : rest = A ++ ':' :: B → ':' ∉ A →
      tokens A = [n] → isDname n = true → tokens B = i :: ts → allOf dig i = true →
      ((ts = [] ∧ cz = [none, none]) ∨
        ∃ f, ts = [f] ∧ isFw f = true ∧ cz = [some (f.take 1), some (f.drop 1)]) →
      c = some n :: some i :: cz → RdForm rest c

theorem no_colon {A : Text} (h : ∀ t ∈ tokens A, ':' ∉ t) : ':' ∉ A := by
  intro hm
  rcases mem_tokens hm with h1 | ⟨t, ht, hx⟩
  · exact absurd h1 (by decide)
  · exact h t ht hx

theorem lang_rdTail (rest : Text) (c : Caps) (h : Lang rdTail rest c) : Edge rest ∧ RdForm rest c := by
  obtain ⟨g, _, _, _, rfl, rfl, ⟨hg0, hg, rfl⟩, n, _, cn, _, rfl, rfl, hn, X, w, cx, _, rfl, rfl, hX,
    hw, rfl⟩ := h
  obtain ⟨hd, rfl⟩ := (is_dname n cn).mp hn
  have hs := solid_of_dname hd
  refine ⟨edge_gap hg hg0, ?_⟩
  rcases hX with ⟨Y, Z, cy, cz, rfl, rfl, hY, hZ⟩ | ⟨rfl, rfl⟩
  · obtain ⟨he, hz⟩ := lang_fwTail Z w cz hZ hw
    rcases hY with ⟨w1, _, _, _, rfl, rfl, ⟨hw1, rfl⟩, _, i, _, ci, rfl, rfl, ⟨rfl, rfl⟩, hi⟩ | ⟨rfl, rfl⟩
    · obtain ⟨hia, rfl⟩ : allOf dig i = true ∧ ci = [some i] := (is_num i ci).mp hi
      clear hi
      have hi := hia
      have hA : tokens (g ++ n ++ w1) = [n] := tokens_one g n w1 hg hs hw1
      refine .index (g ++ n ++ w1) (i ++ (Z ++ w)) n i (tokens (Z ++ w)) cz (by simp) ?_ hA hd ?_ hi hz (by simp)
      · refine no_colon ?_
        rw [hA]
        intro t ht
        rw [List.mem_singleton] at ht
        subst ht
        exact colon_dname hd
      · exact tokens_cons [] i (Z ++ w) rfl (num_solid hi) he
    · refine .plain n (tokens (Z ++ w)) cz ?_ hd hz (by simp [Re.nones, ws, k, num])
      have := tokens_cons g n (Z ++ w) hg hs he
      simpa using this
  · refine .plain n [] [none, none] ?_ hd (.inl ⟨rfl, rfl⟩) (by simp [Re.nones, gap, fw, width, ws, k, num])
    have := tokens_one g n w hg hs hw
    simpa using this

theorem lang_rdVreg (s : Text) (c : Caps) (h : Lang rdVregRe s c) :
    ∃ w0 r, s = w0 ++ "vreg".toList ++ r ∧ Blank w0 ∧ Edge r ∧ (RdForm r c ∨
      ∃ g r', r = g ++ "get".toList ++ r' ∧ Blank g ∧ g ≠ [] ∧ Edge r' ∧ RdForm r' c) := by
  rw [rdVreg_eq] at h
  obtain ⟨w0, _, _, _, rfl, rfl, ⟨hw0, rfl⟩, _, _, _, _, rfl, rfl, ⟨rfl, rfl⟩, o, r, co, cr, rfl, rfl,
    ho, hr⟩ := h
  obtain ⟨he, hf⟩ := lang_rdTail r cr hr
  rcases ho with ⟨g, _, _, _, rfl, rfl, ⟨hg0, hg, rfl⟩, rfl, rfl⟩ | ⟨rfl, rfl⟩
  · exact ⟨w0, g ++ "get".toList ++ r, by first | rfl | (simp only [List.append_assoc]; done) | (simp only [List.append_assoc]; rfl), hw0,
      by rw [List.append_assoc]; exact edge_gap hg hg0,
      .inr ⟨g, r, rfl, hg, hg0, he, hf⟩⟩
  · exact ⟨w0, r, by first | rfl | (simp only [List.append_assoc, List.nil_append]; done) | (simp only [List.append_assoc, List.nil_append]; rfl), hw0, he, .inl hf⟩

theorem rdVreg_head (s : Text) (c : Caps) (h : Lang rdVregRe s c) : ∃ ts, tokens s = "vreg".toList :: ts := by
  obtain ⟨w0, r, rfl, hw0, he, _⟩ := lang_rdVreg s c h
  exact ⟨tokens r, tokens_cons w0 _ r hw0 ⟨by decide, by decide⟩ he⟩

/-- `n` or `n:i`. -/
def elem (n : Text) (i : Option Text) : Text :=
  match i with
  | none => n
  | some i => n ++ ':' :: i

theorem colon_fw {f : Text} (h : isFw f = true) : ':' ∉ f := by
  cases f with
  | nil => cases h
  | cons x u =>
    simp only [isFw, Bool.and_eq_true, oneOf, List.contains_iff_mem] at h
    intro hm
    rcases List.mem_cons.mp hm with rfl | hm
    · exact absurd h.1 (by decide)
    · have h2 := h.2
      simp only [isWidth, Bool.or_eq_true, decide_eq_true_eq] at h2
      rcases h2 with ((rfl | rfl) | rfl) | rfl <;> exact absurd hm (by decide)

theorem colon_tokens {rest : Text} {A B : Text} (h : rest = A ++ ':' :: B) : ∃ t ∈ tokens rest, ':' ∈ t := by
  rcases mem_tokens (s := rest) (x := ':') (by rw [h]; simp) with h1 | h1
  · exact absurd h1 (by decide)
  · exact h1

/-- The rest of the line after the element: nothing, or a format. -/
def fwToks : Option Text → List Text
  | none => []
  | some f => [f]

def fwCaps : Option Text → Caps
  | none => [none, none]
  | some f => [some (f.take 1), some (f.drop 1)]

theorem full_rdTail (rest n : Text) (i f : Option Text) (he : Edge rest) (hn : isDname n = true)
    (hi : ∀ x, i = some x → allOf dig x = true) (hf : ∀ x, f = some x → isFw x = true)
    (h : tokens rest = elem n i :: fwToks f) : full rdTail rest = some (some n :: i :: fwCaps f) := by
  obtain ⟨g, r, rfl, hg, hsn, he2, hr⟩ := tokens_cons_inv h
  have hg0 := gap_of_edge he rfl hsn
  have hfw : ∃ Z w, r = Z ++ w ∧ Blank w ∧ Lang (.opt (.seq gap (.opt fw))) Z (fwCaps f) := by
    cases f with
    | none => exact ⟨[], r, rfl, (tokens_nil r).mp hr, .inr ⟨rfl, rfl⟩⟩
    | some f =>
      obtain ⟨g2, w, rfl, hg2, hg20, _, hw⟩ := one_word he2 hr
      exact ⟨g2 ++ f, w, rfl, hw, .inl ⟨g2, f, [], _, rfl, rfl, ⟨hg20, hg2, rfl⟩,
        .inl ((is_fw f _).mpr ⟨hf f rfl, rfl⟩)⟩⟩
  obtain ⟨Z, w, rfl, hw, hZ⟩ := hfw
  cases i with
  | none =>
    have hl : Lang rdTail (g ++ n ++ (Z ++ w)) (some n :: none :: fwCaps f) :=
      ⟨g, n ++ (Z ++ w), [], _, by simp only [List.append_assoc], rfl, ⟨hg0, hg, rfl⟩, n, Z ++ w, [some n],
        none :: fwCaps f, rfl, rfl, (is_dname n _).mpr ⟨hn, rfl⟩, Z, w, none :: fwCaps f, [], rfl, by simp,
        .inl ⟨[], Z, [none], fwCaps f, rfl, rfl, .inr ⟨rfl, rfl⟩, hZ⟩, hw, rfl⟩
    refine full_eq hl (fun c' hc' => ?_)
    obtain ⟨_, hform⟩ := lang_rdTail _ c' hc'
    cases hform with
    | plain n' ts cz h1 h2 h3 h4 =>
      rw [h] at h1
      cases h1
      subst h4
      cases f with
      | none =>
        rcases h3 with ⟨_, rfl⟩ | ⟨f', h3, _⟩
        · rfl
        · cases h3
      | some f =>
        rcases h3 with ⟨h3, _⟩ | ⟨f', h3, _, rfl⟩
        · cases h3
        · cases h3; rfl
    | index A B n' i' ts cz h1 =>
      exfalso
      obtain ⟨t, ht, hc⟩ := colon_tokens h1
      rw [h] at ht
      rcases List.mem_cons.mp ht with rfl | ht
      · exact colon_dname hn hc
      · cases f with
        | none => cases ht
        | some f =>
          rw [fwToks, List.mem_singleton] at ht
          subst ht
          exact colon_fw (hf t rfl) hc
  | some i =>
    have hii := hi i rfl
    have hl : Lang rdTail (g ++ (n ++ ':' :: i) ++ (Z ++ w)) (some n :: some i :: fwCaps f) :=
      ⟨g, n ++ (':' :: i ++ (Z ++ w)), [], _, by simp only [List.append_assoc], rfl, ⟨hg0, hg, rfl⟩, n,
        ':' :: i ++ (Z ++ w), [some n],
        some i :: fwCaps f, rfl, rfl, (is_dname n _).mpr ⟨hn, rfl⟩, ':' :: i ++ Z, w, some i :: fwCaps f, [],
        by simp only [List.append_assoc], by simp,
        .inl ⟨':' :: i, Z, [some i], fwCaps f, rfl, rfl,
          .inl ⟨[], ':' :: i, [], [some i], rfl, rfl, ⟨rfl, rfl⟩, ":".toList, i, [], [some i], rfl, rfl,
            ⟨rfl, rfl⟩, (is_num i _).mpr ⟨hii, rfl⟩⟩, hZ⟩, hw, rfl⟩
    refine full_eq hl (fun c' hc' => ?_)
    obtain ⟨_, hform⟩ := lang_rdTail _ c' hc'
    cases hform with
    | plain n' ts cz h1 h2 h3 h4 =>
      exfalso
      rw [h] at h1
      have : n' = n ++ ':' :: i := by
        have := (List.cons.inj h1).1
        exact this.symm
      exact colon_dname h2 (by rw [this]; simp)
    | index A B n' i' ts cz h1 h2 h3 h4 h5 h6 h7 h8 =>
      have hsplit : g ++ (n ++ ':' :: i) ++ (Z ++ w) = (g ++ n) ++ ':' :: (i ++ (Z ++ w)) := by
        simp only [List.append_assoc, List.cons_append]
      have hA : tokens (g ++ n) = [n] := by
        have := tokens_one g n [] hg (solid_of_dname hn) rfl
        rwa [List.append_nil] at this
      have hcol : ':' ∉ g ++ n := by
        refine no_colon ?_
        rw [hA]
        intro t ht
        rw [List.mem_singleton] at ht
        subst ht
        exact colon_dname hn
      rw [show g ++ elem n (some i) ++ (Z ++ w) = _ from hsplit] at h1
      obtain ⟨rfl, rfl⟩ := split_unique h1 hcol h2
      rw [hA] at h3
      cases h3
      have hB : tokens (i ++ (Z ++ w)) = i :: fwToks f := by
        have := tokens_cons [] i (Z ++ w) rfl (num_solid hii) he2
        rw [List.nil_append] at this
        rw [this, hr]
      rw [hB] at h5
      cases h5
      subst h8
      cases f with
      | none =>
        rcases h7 with ⟨_, rfl⟩ | ⟨f', h7, _⟩
        · rfl
        · cases h7
      | some f =>
        rcases h7 with ⟨h7, _⟩ | ⟨f', h7, _, rfl⟩
        · cases h7
        · cases h7; rfl

theorem full_vregGet (s n : Text) (i f : Option Text) (hn : isDname n = true)
    (hi : ∀ x, i = some x → allOf dig x = true) (hf : ∀ x, f = some x → isFw x = true)
    (h : tokens s = "vreg".toList :: "get".toList :: elem n i :: fwToks f) :
    full rdVregRe s = some (some n :: i :: fwCaps f) := by
  rw [rdVreg_eq]
  obtain ⟨w0, r, rfl, hw0, _, he, hr⟩ := tokens_cons_inv h
  obtain ⟨g, r2, rfl, hg, hs2, he2, hr2⟩ := tokens_cons_inv hr
  have hg0 := gap_of_edge he rfl hs2
  rw [List.append_assoc]
  refine full_ws hw0 ⟨by decide, by decide⟩ (full_lit ?_)
  have htail := full_rdTail r2 n i f he2 hn hi hf hr2
  obtain ⟨xs, hx⟩ := splits_first sp g ("get".toList ++ r2) hg (solid_head hs2)
  have hb : (!g.isEmpty) = true := by cases g with
    | nil => exact absurd rfl hg0
    | cons => rfl
  have hgap : gap.ways (g ++ ("get".toList ++ r2)) = ([], g, "get".toList ++ r2) ::
      (xs.filter fun x => !x.1.isEmpty).map (fun x => ([], x.1, x.2)) := by
    rw [gap, Re.ways, hx, List.filter_cons_of_pos (p := fun x : Text × Text => !x.1.isEmpty) hb]; rfl
  have hget : (k "get").ways ("get".toList ++ r2) = [([], "get".toList, r2)] := by
    rw [k, Re.ways, if_pos (List.isPrefixOf_iff_prefix.mpr ⟨r2, rfl⟩), List.drop_left]
  have : ∃ ys, (Re.opt (.seq gap (k "get"))).ways (g ++ "get".toList ++ r2)
      = ([], g ++ "get".toList, r2) :: ys := by
    rw [Re.ways, Re.ways, List.append_assoc, hgap, List.flatMap_cons]
    simp only [hget, List.map_cons, List.map_nil, List.cons_append, List.nil_append]
    exact ⟨_, rfl⟩
  obtain ⟨ys, hy⟩ := this
  have := full_seq_first (b := rdTail) hy htail
  simpa using this

/-- A line setting an element is not taken for one reading it. -/
theorem full_vregGet_set (s n i f v : Text) (hn : isDname n = true)
    (h : tokens s = ["vreg".toList, "set".toList, n ++ ':' :: i, f, v]) :
    full rdVregRe s = none := by
  refine full_none (fun c hc => ?_)
  obtain ⟨w0, r, rfl, hw0, he, hform⟩ := lang_rdVreg s c hc
  rw [tokens_cons w0 _ r hw0 ⟨by decide, by decide⟩ he] at h
  have hr := (List.cons.inj h).2
  rcases hform with hform | ⟨g, r', rfl, hg, hg0, he', _⟩
  · cases hform with
    | plain n' ts cz h1 h2 h3 h4 =>
      rw [hr] at h1
      cases h1
      rcases h3 with ⟨h3, _⟩ | ⟨f', h3, _⟩ <;> cases h3
    | index A B n' i' ts cz h1 h2 h3 =>
      obtain ⟨w1, r1, rfl, hw1, hs1, he1, hr1⟩ := tokens_cons_inv hr
      obtain ⟨w2, r2, rfl, hw2, hs2, he2, hr2⟩ := tokens_cons_inv hr1
      have hw20 := gap_of_edge he1 rfl hs2
      have hA : tokens (w1 ++ "set".toList ++ (w2 ++ n)) = ["set".toList, n] := by
        rw [tokens_cons w1 _ _ hw1 ⟨by decide, by decide⟩ (edge_gap hw2 hw20)]
        have := tokens_one w2 n [] hw2 (solid_of_dname hn) rfl
        rw [List.append_nil] at this
        rw [this]
      have hcol : ':' ∉ w1 ++ "set".toList ++ (w2 ++ n) := by
        refine no_colon ?_
        rw [hA]
        intro t ht
        simp only [List.mem_cons, List.not_mem_nil, or_false] at ht
        rcases ht with rfl | rfl
        · decide
        · exact colon_dname hn
      have hsplit : w1 ++ "set".toList ++ (w2 ++ (n ++ ':' :: i) ++ r2)
          = (w1 ++ "set".toList ++ (w2 ++ n)) ++ ':' :: (i ++ r2) := by
        simp only [List.append_assoc, List.cons_append]
      rw [hsplit] at h1
      obtain ⟨rfl, rfl⟩ := split_unique h1 hcol h2
      rw [hA] at h3
      cases h3
  · rw [tokens_cons g _ r' hg ⟨by decide, by decide⟩ he'] at hr
    have := (List.cons.inj hr).1
    exact absurd this (by decide)

end Verif.Shell
