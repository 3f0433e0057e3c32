import Verif.Shell.Rules
/-
Proof infrastructure for the command shell: `exec`, `mem set` and the vector register commands.
-/
namespace Verif.Shell
open Spec (tokens tokensFrom)

/-! ## The first way -/

theorem full_seq_first {a b : Re} {s : Text} {x : Caps × Text × Text} {xs} {c : Caps}
    (h : a.ways s = x :: xs) (hb : full b x.2.2 = some c) : full (.seq a b) s = some (x.1 ++ c) := by
  unfold full at hb ⊢
  simp only [Re.ways, h, List.flatMap_cons]
  rw [Option.map_eq_some_iff] at hb
  obtain ⟨y, hy, rfl⟩ := hb
  rw [List.find?_append, List.find?_map]
  have : (List.find? ((fun x => x.2.2.isEmpty) ∘ fun y : Caps × Text × Text =>
      (x.1 ++ y.1, x.2.1 ++ y.2.1, y.2.2)) (b.ways x.2.2)) = some y := by
    rw [← hy]; rfl
  rw [this]; rfl

theorem splits_first (p : Char → Bool) : ∀ (w s : Text), w.all p = true →
    (s = [] ∨ ∃ x r, s = x :: r ∧ p x = false) → ∃ xs, splits p (w ++ s) = (w, s) :: xs := by
  intro w
  induction w with
  | nil =>
    rintro s _ (rfl | ⟨x, r, rfl, hx⟩)
    · exact ⟨[], rfl⟩
    · refine ⟨[], ?_⟩
      simp only [List.nil_append, splits, hx]; rfl
  | cons y w ih =>
    intro s hw hs
    simp only [List.all_cons, Bool.and_eq_true] at hw
    obtain ⟨xs, h⟩ := ih s hw.2 hs
    refine ⟨xs.map (fun x => (y :: x.1, x.2)) ++ [([], y :: (w ++ s))], ?_⟩
    rw [List.cons_append, splits, if_pos hw.1, h]; rfl

theorem solid_head {t r : Text} (h : Solid t) : t ++ r = [] ∨ ∃ x q, t ++ r = x :: q ∧ sp x = false := by
  cases t with
  | nil => exact absurd rfl h.1
  | cons x t =>
    have := h.2
    simp only [List.all_cons, Bool.and_eq_true, Bool.not_eq_true'] at this
    exact .inr ⟨x, t ++ r, rfl, this.1⟩

theorem full_ws {b : Re} {w t r : Text} {c : Caps} (hw : Blank w) (ht : Solid t)
    (h : full b (t ++ r) = some c) : full (.seq ws b) (w ++ (t ++ r)) = some c := by
  obtain ⟨xs, hx⟩ := splits_first sp w (t ++ r) hw (solid_head ht)
  have : ws.ways (w ++ (t ++ r)) = ([], w, t ++ r) :: xs.map (fun x => ([], x.1, x.2)) := by
    rw [ws, Re.ways, hx]; rfl
  exact full_seq_first (x := ([], w, t ++ r)) this h

theorem full_gap {b : Re} {w t r : Text} {c : Caps} (hw : Blank w) (h0 : w ≠ []) (ht : Solid t)
    (h : full b (t ++ r) = some c) : full (.seq gap b) (w ++ (t ++ r)) = some c := by
  obtain ⟨xs, hx⟩ := splits_first sp w (t ++ r) hw (solid_head ht)
  have hb : (!w.isEmpty) = true := by cases w with
    | nil => exact absurd rfl h0
    | cons => rfl
  have : gap.ways (w ++ (t ++ r)) = ([], w, t ++ r) ::
      (xs.filter fun x => !x.1.isEmpty).map (fun x => ([], x.1, x.2)) := by
    rw [gap, Re.ways, hx, List.filter_cons_of_pos (p := fun x : Text × Text => !x.1.isEmpty) hb]; rfl
  exact full_seq_first (x := ([], w, t ++ r)) this h

theorem full_lit {b : Re} {t r : Text} {c : Caps} (h : full b r = some c) :
    full (.seq (.lit t) b) (t ++ r) = some c := by
  have : (Re.lit t).ways (t ++ r) = [([], t, r)] := by
    rw [Re.ways, if_pos (List.isPrefixOf_iff_prefix.mpr ⟨r, rfl⟩), List.drop_left]
  exact full_seq_first (x := ([], t, r)) this h

/-! ## exec -/

theorem lang_exec (s : Text) (c : Caps) (h : Lang execRe s c) :
    ∃ ts, tokens s = "exec".toList :: ts := by
  obtain ⟨w0, _, _, _, rfl, rfl, ⟨hw0, rfl⟩, w1, _, _, _, rfl, rfl, ⟨rfl, rfl⟩, g, r, _, _, rfl, rfl,
    ⟨hg0, hg, rfl⟩, _⟩ := h
  refine ⟨tokens (g ++ r), ?_⟩
  rw [← List.append_assoc]
  exact tokens_cons w0 _ _ hw0 ⟨by decide, by decide⟩ (edge_gap hg hg0)

theorem full_exec (s f : Text) (h : tokens s = ["exec".toList, f])
    (hl : ∀ x, s.getLast? = some x → sp x = false) : full execRe s = some [some f] := by
  obtain ⟨w0, r, rfl, hw0, _, he, hr⟩ := tokens_cons_inv h
  obtain ⟨g, r2, rfl, hg, hg0, hf, hr2⟩ := one_word he hr
  have : r2 = [] := by
    cases hc : r2.getLast? with
    | none => exact List.getLast?_eq_none_iff.mp hc
    | some x =>
      exfalso
      have h1 := hl x (by
        rw [List.getLast?_append, List.getLast?_append, hc]; rfl)
      have h2 := List.mem_of_getLast? hc
      have h3 := List.all_eq_true.mp hr2 x h2
      rw [h1] at h3; cases h3
  subst this
  rw [List.append_nil, List.append_assoc]
  refine full_ws hw0 ⟨by decide, by decide⟩ (full_lit ?_)
  have hdot : f.all dot = true := by
    rw [List.all_eq_true]
    intro x hx
    have := List.all_eq_true.mp hf.2 x hx
    simp only [dot, Bool.not_eq_true', decide_eq_false_iff_not]
    rintro rfl
    exact absurd this (by decide)
  have hfull : full (.seq (.grp (.plus dot)) ws) f = some [some f] := by
    obtain ⟨xs, hx⟩ := splits_first dot f [] hdot (.inl rfl)
    rw [List.append_nil] at hx
    have hb : (!f.isEmpty) = true := by cases f with
      | nil => exact absurd rfl hf.1
      | cons => rfl
    have : (Re.grp (.plus dot)).ways f = ([some f], f, []) ::
        ((xs.filter fun x => !x.1.isEmpty).map (fun x => (([] : Caps), x.1, x.2))).map
          (fun x => (some x.2.1 :: x.1, x.2)) := by
      rw [Re.ways, Re.ways, hx, List.filter_cons_of_pos (p := fun x : Text × Text => !x.1.isEmpty) hb]; rfl
    exact full_seq_first (x := ([some f], f, [])) this (c := []) (show full ws [] = some [] by decide)
  have := full_gap (b := .seq (.grp (.plus dot)) ws) (r := []) (t := f) hg hg0 hf
    (by rw [List.append_nil]; exact hfull)
  rw [List.append_nil] at this
  exact this

/-! ## mem set -/

def memSetTail : Re := .seq gap (.seq (.opt (.grp fmtI)) (.seq gap (.seq word ws)))

theorem good_memSet : ∀ r ∈ [k "mem", k "set", word], Good r := by
  intro r hr
  simp only [List.mem_cons, List.not_mem_nil, or_false] at hr
  rcases hr with rfl | rfl | rfl
  · exact good_k _ (by decide)
  · exact good_k _ (by decide)
  · exact good_word

theorem lang_memSetTail (rest : Text) (c : Caps) (h : Lang memSetTail rest c) : Edge rest ∧
    ((∃ f v, tokens rest = [f, v] ∧ isFmt "oduxX" f = true ∧ allOf wrd v = true ∧ c = [some f, some v])
    ∨ (∃ v, tokens rest = [v] ∧ allOf wrd v = true ∧ c = [none, some v] ∧
        ∃ g r, rest = g ++ v ++ r ∧ Blank g ∧ Blank r ∧ 2 ≤ g.length)) := by
  obtain ⟨g, _, _, _, rfl, rfl, ⟨hg0, hg, rfl⟩, f, _, cf, _, rfl, rfl, hf, g2, _, _, _, rfl, rfl,
    ⟨hg20, hg2, rfl⟩, v, w, cv, _, rfl, rfl, hv, hw, rfl⟩ := h
  obtain ⟨hva, rfl⟩ := (is_word v cv).mp hv
  clear hv
  have hv := hva
  have hvs := allOf_solid wrd_sp hv
  refine ⟨edge_gap hg hg0, ?_⟩
  rcases hf with ⟨c3, rfl, h3⟩ | ⟨rfl, rfl⟩
  · obtain ⟨hq, rfl⟩ := (is_fmt "oduxX" f c3).mp h3
    refine .inl ⟨f, v, ?_, hq, hv, rfl⟩
    rw [← List.append_assoc, tokens_cons g f _ hg (fmt_solid _ (by decide) f hq) (edge_gap hg2 hg20),
      ← List.append_assoc, tokens_one g2 v w hg2 hvs hw]
  · refine .inr ⟨v, ?_, hv, rfl, g ++ g2, w, by simp, blank_append hg hg2, hw, ?_⟩
    · have := tokens_one (g ++ g2) v w (blank_append hg hg2) hvs hw
      simpa using this
    · rw [List.length_append]
      have := List.length_pos_iff.mpr hg0
      have := List.length_pos_iff.mpr hg20
      omega

theorem lang_memSet (s : Text) (c : Caps) (h : Lang writeMemRe s c) :
    ∃ a, allOf wrd a = true ∧
    ((∃ f v, tokens s = ["mem".toList, "set".toList, a, f, v] ∧ isFmt "oduxX" f = true ∧
        allOf wrd v = true ∧ c = [some a, some f, some v])
    ∨ (∃ v, tokens s = ["mem".toList, "set".toList, a, v] ∧ allOf wrd v = true ∧
        c = [some a, none, some v] ∧
        ∃ p g r, s = p ++ g ++ v ++ r ∧ Blank g ∧ Blank r ∧ 2 ≤ g.length)) := by
  have hl := lang_words [k "mem", k "set", word] memSetTail s c (by simp)
    (fun r h => (good_memSet r h).1) true
  simp only [if_true] at hl
  obtain ⟨ts, rest, c1, c2, hf, rfl, hlt, ht⟩ := hl.mp h
  have htm := (langT_tm _ ts c1 (fun r h => (good_memSet r h).2)).mp hlt
  obtain ⟨he, ht⟩ := lang_memSetTail rest c2 ht
  have hts := front_tokens ts true s rest hf he
  obtain ⟨a, rfl, ha, rfl⟩ : ∃ a, ts = ["mem".toList, "set".toList, a] ∧ allOf wrd a = true ∧
      c1 = [some a] := by
    match ts with
    | [x, y, a] =>
      simp only [tm, full_k, full_word] at htm
      split at htm
      · rename_i c hc
        split at hc
        · cases hc
          rename_i h1
          subst h1
          simp only [List.nil_append, Option.map_id_fun', id] at htm
          split at htm
          · rename_i c hc
            split at hc
            · cases hc
              rename_i h1
              subst h1
              split at htm
              · rename_i c hc
                split at hc
                · cases hc
                  rename_i h1
                  exact ⟨a, rfl, h1, by simpa using htm.symm⟩
                · cases hc
              · cases htm
            · cases hc
          · cases htm
        · cases hc
      · cases htm
    | [] => cases htm
    | [x] => exfalso; revert htm; simp only [tm]; cases full (k "mem") x <;> simp
    | [x, y] =>
      exfalso; revert htm; simp only [tm]
      cases full (k "mem") x <;> cases full (k "set") y <;> simp
    | x :: y :: z :: u :: l =>
      exfalso; revert htm; simp only [tm]
      cases full (k "mem") x <;> cases full (k "set") y <;> cases full word z <;> simp
  refine ⟨a, ha, ?_⟩
  rcases ht with ⟨f, v, h1, h2, h3, rfl⟩ | ⟨v, h1, h3, rfl, g, r, rfl, hg, hr, hlen⟩
  · exact .inl ⟨f, v, by rw [hts, h1]; rfl, h2, h3, rfl⟩
  · refine .inr ⟨v, by rw [hts, h1]; rfl, h3, rfl, ?_⟩
    obtain ⟨w0, s1, rfl, _, _, _, w1, s2, rfl, _, _, _, w2, s3, rfl, _, _, _, h⟩ := hf
    have : s3 = g ++ v ++ r := h
    subst this
    exact ⟨w0 ++ "mem".toList ++ (w1 ++ "set".toList ++ (w2 ++ a)), g, r,
      by simp only [List.append_assoc], hg, hr, hlen⟩

theorem tm_memSet (a : Text) (ha : allOf wrd a = true) :
    tm [k "mem", k "set", word] ["mem".toList, "set".toList, a] = some [some a] := by
  simp [tm, full_k, full_word, ha]

theorem full_memSet (s a f v : Text) (h : tokens s = ["mem".toList, "set".toList, a, f, v])
    (ha : allOf wrd a = true) (hf : isFmt "oduxX" f = true) (hv : allOf wrd v = true) :
    full writeMemRe s = some [some a, some f, some v] := by
  have hl := lang_words [k "mem", k "set", word] memSetTail s [some a, some f, some v] (by simp)
    (fun r h => (good_memSet r h).1) true
  simp only [if_true] at hl
  obtain ⟨rest, hfr, he, hr⟩ := tokens_front ["mem".toList, "set".toList, a] [f, v] true s h
    (fun h => by cases h) (fun h => by cases h)
  have ht : Lang memSetTail rest [some f, some v] := by
    obtain ⟨g, r, rfl, hg, hfs, he2, hr2⟩ := tokens_cons_inv hr
    have hg0 : g ≠ [] := by
      rintro rfl
      rcases he with h0 | ⟨x, q, h0, hx⟩
      · simp only [List.nil_append, List.append_eq_nil_iff] at h0
        exact hfs.1 h0.1
      · cases f with
        | nil => exact hfs.1 rfl
        | cons y t =>
          simp only [List.nil_append, List.cons_append, List.cons.injEq] at h0
          have := hfs.2
          simp only [List.all_cons, Bool.and_eq_true, Bool.not_eq_true'] at this
          rw [← h0.1, this.1] at hx; cases hx
    obtain ⟨g2, w, rfl, hg2, hg20, hvs, hw⟩ := one_word he2 hr2
    exact ⟨g, f ++ (g2 ++ v ++ w), [], [some f, some v], by simp only [List.append_assoc], rfl, ⟨hg0, hg, rfl⟩,
      f, g2 ++ v ++ w, [some f], [some v], rfl, rfl,
      .inl ((is_fmt "oduxX").grp f _ |>.mpr ⟨hf, rfl⟩),
      g2, v ++ w, [], [some v], by simp only [List.append_assoc], rfl, ⟨hg20, hg2, rfl⟩,
      v, w, [some v], [], rfl, rfl, (is_word v _).mpr ⟨hv, rfl⟩, hw, rfl⟩
  have hlang : Lang writeMemRe s [some a, some f, some v] := hl.mpr
    ⟨["mem".toList, "set".toList, a], rest, [some a], [some f, some v], hfr, rfl,
     (langT_tm _ _ _ (fun r h => (good_memSet r h).2)).mpr (tm_memSet a ha), ht⟩
  refine full_eq hlang (fun c' hc' => ?_)
  obtain ⟨a', _, ⟨f', v', h1, _, _, rfl⟩ | ⟨v', h1, _⟩⟩ := lang_memSet s c' hc'
  · rw [h] at h1; cases h1; rfl
  · rw [h] at h1; cases h1

/-! ## Vector registers -/

def isWidth (t : Text) : Bool :=
  t = "8".toList || t = "16".toList || t = "32".toList || t = "64".toList

theorem is_width : Is width isWidth (fun t => [some t]) := by
  refine Is.grp (f := fun _ => []) ?_
  intro t c
  simp only [Lang, k, Re.nones, isWidth, Bool.or_eq_true, decide_eq_true_eq]
  constructor
  · rintro (⟨_, rfl, rfl, rfl⟩ | ⟨_, rfl, ⟨_, rfl, rfl, rfl⟩ | ⟨_, rfl, ⟨_, rfl, rfl, rfl⟩ | ⟨_, rfl, rfl, rfl⟩⟩⟩) <;> simp
  · rintro ⟨((rfl | rfl) | rfl) | rfl, rfl⟩
    · exact .inl ⟨[], rfl, rfl, rfl⟩
    · exact .inr ⟨[], rfl, .inl ⟨[], rfl, rfl, rfl⟩⟩
    · exact .inr ⟨[], rfl, .inr ⟨[], rfl, .inl ⟨[], rfl, rfl, rfl⟩⟩⟩
    · exact .inr ⟨[], rfl, .inr ⟨[], rfl, .inr ⟨[], rfl, rfl, rfl⟩⟩⟩

def fw : Re := .seq (.grp (.one (oneOf "oduxX"))) width

def isFw (t : Text) : Bool :=
  match t with
  | [] => false
  | x :: u => oneOf "oduxX" x && isWidth u

theorem is_fw : Is fw isFw (fun t => [some (t.take 1), some (t.drop 1)]) := by
  intro t c
  constructor
  · rintro ⟨w1, w2, c1, c2, rfl, rfl, ⟨c3, rfl, ⟨x, rfl, hx⟩, rfl⟩, h2⟩
    obtain ⟨h3, rfl⟩ := (is_width w2 c2).mp h2
    exact ⟨by simp only [isFw, List.cons_append, List.nil_append, hx, h3]; rfl, rfl⟩
  · rintro ⟨h1, rfl⟩
    cases t with
    | nil => cases h1
    | cons x u =>
      simp only [isFw, Bool.and_eq_true] at h1
      exact ⟨[x], u, [some [x]], [some u], rfl, rfl, ⟨[], rfl, ⟨x, rfl, h1.1⟩, rfl⟩,
        (is_width u _).mpr ⟨h1.2, rfl⟩⟩

theorem fw_solid (t : Text) (h : isFw t = true) : Solid t := by
  cases t with
  | nil => cases h
  | cons x u =>
    simp only [isFw, Bool.and_eq_true, oneOf, List.contains_iff_mem] at h
    refine solid_cons ?_ ?_
    · have := List.all_eq_true.mp (show "oduxX".toList.all (fun c => !sp c) = true by decide) x h.1
      simpa using this
    · have h2 := h.2
      simp only [isWidth, Bool.or_eq_true, decide_eq_true_eq] at h2
      rcases h2 with ((rfl | rfl) | rfl) | rfl <;> exact ⟨by decide, by decide⟩

theorem good_fw : Good fw := is_fw.good fw_solid

theorem full_fw (t : Text) : full fw t = if isFw t then some [some (t.take 1), some (t.drop 1)] else none :=
  is_fw.full t

/-- Every character of a line is a blank or in a word. -/
theorem mem_tokens {s : Text} {x : Char} : x ∈ s → sp x = true ∨ ∃ t ∈ tokens s, x ∈ t := by
  suffices H : ∀ (s cur : Text), x ∈ cur ∨ x ∈ s → sp x = true ∨ ∃ t ∈ tokensFrom cur s, x ∈ t by
    intro h; exact H s [] (.inr h)
  intro s
  induction s with
  | nil =>
    intro cur h
    rcases h with h | h
    · right
      refine ⟨cur, ?_, h⟩
      rw [tokensFrom, if_neg (by rintro rfl; cases h)]
      exact List.mem_singleton.mpr rfl
    · cases h
  | cons y s ih =>
    intro cur h
    rw [tokensFrom, sp_eq]
    split
    · rename_i hy
      split
      · rename_i hc
        subst hc
        rcases h with h | h
        · cases h
        · rcases List.mem_cons.mp h with rfl | h
          · exact .inl hy
          · exact ih [] (.inr h)
      · rcases h with h | h
        · exact .inr ⟨cur, List.mem_cons_self, h⟩
        · rcases List.mem_cons.mp h with rfl | h
          · exact .inl hy
          · rcases ih [] (.inr h) with h | ⟨t, ht, hx⟩
            · exact .inl h
            · exact .inr ⟨t, List.mem_cons_of_mem _ ht, hx⟩
    · refine ih (cur ++ [y]) ?_
      rcases h with h | h
      · exact .inl (List.mem_append_left _ h)
      · rcases List.mem_cons.mp h with rfl | h
        · exact .inl (by simp)
        · exact .inr h

theorem split_unique {x : Char} : ∀ {a b a' b' : Text}, a ++ x :: b = a' ++ x :: b' → x ∉ a → x ∉ a' →
    a = a' ∧ b = b' := by
  intro a
  induction a with
  | nil =>
    intro b a' b' h _ h'
    cases a' with
    | nil => exact ⟨rfl, by simpa using h⟩
    | cons y a' =>
      simp only [List.nil_append, List.cons_append, List.cons.injEq] at h
      exact absurd (by rw [h.1]; exact List.mem_cons_self) h'
  | cons y a ih =>
    intro b a' b' h h1 h'
    cases a' with
    | nil =>
      simp only [List.nil_append, List.cons_append, List.cons.injEq] at h
      exact absurd (by rw [← h.1]; exact List.mem_cons_self) h1
    | cons z a' =>
      simp only [List.cons_append, List.cons.injEq] at h
      obtain ⟨rfl, h⟩ := h
      obtain ⟨rfl, rfl⟩ := ih h (fun hm => h1 (List.mem_cons_of_mem _ hm)) (fun hm => h' (List.mem_cons_of_mem _ hm))
      exact ⟨rfl, rfl⟩

theorem colon_dname {n : Text} (h : isDname n = true) : ':' ∉ n := by
  have key : ∀ u : Text, allOf wrd u = true → ':' ∉ u := by
    intro u hu hm
    simp only [allOf, Bool.and_eq_true] at hu
    exact absurd (List.all_eq_true.mp hu.2 _ hm) (by decide)
  unfold isDname at h
  split at h
  · intro hm
    rcases List.mem_cons.mp hm with h' | h'
    · exact absurd h' (by decide)
    · exact key _ h h'
  · exact key n h

theorem front_append : ∀ (ts : List Text) (b : Bool) (s w x : Text), Front b s ts (w ++ x) →
    ∃ a, s = a ++ x ∧ Front b a ts w := by
  intro ts
  induction ts with
  | nil => intro b s w x h; exact ⟨w, h, rfl⟩
  | cons t ts ih =>
    intro b s w x h
    obtain ⟨g, s1, rfl, h1, h2, h3, h4⟩ := h
    obtain ⟨a, rfl, ha⟩ := ih false s1 w x h4
    exact ⟨g ++ t ++ a, by simp only [List.append_assoc], g, a, rfl, h1, h2, h3, ha⟩

theorem tm_inv3 {a b : String} {r : Re} {ts : List Text} {c : Caps} (h : tm [k a, k b, r] ts = some c) :
    ∃ n, ts = [a.toList, b.toList, n] ∧ full r n = some c := by
  match ts with
  | [x, y, n] =>
    simp only [tm, full_k] at h
    by_cases hx : x = a.toList
    · by_cases hy : y = b.toList
      · subst hx; subst hy
        refine ⟨n, rfl, ?_⟩
        cases e : full r n with
        | none => rw [e] at h; simp at h
        | some c' => rw [e] at h; simp at h; rw [h]
      · simp [hx, hy] at h
    · simp [hx] at h
  | [] => cases h
  | [x] => exfalso; revert h; simp only [tm]; cases full (k a) x <;> simp
  | [x, y] =>
    exfalso; revert h; simp only [tm]
    cases full (k a) x <;> cases full (k b) y <;> simp
  | x :: y :: z :: u :: l =>
    exfalso; revert h; simp only [tm]
    cases full (k a) x <;> cases full (k b) y <;> cases full r z <;> simp

def vsTail : Re := .seq ws (words [.seq (k ":") num, fw, word] ws)

theorem lang_wrVreg (s : Text) (c : Caps) (h : Lang wrVregRe s c) :
    ∃ A B n cb, s = A ++ ':' :: B ∧ ':' ∉ A ∧ tokens A = ["vreg".toList, "set".toList, n]
      ∧ isDname n = true ∧ tm [num, fw, word] (tokens B) = some cb ∧ c = some n :: cb := by
  have hg : ∀ r ∈ [k "vreg", k "set", dname], Good r := by
    intro r hr
    simp only [List.mem_cons, List.not_mem_nil, or_false] at hr
    rcases hr with rfl | rfl | rfl
    · exact good_k _ (by decide)
    · exact good_k _ (by decide)
    · exact good_dname
  have hl := lang_words [k "vreg", k "set", dname] vsTail s c (by simp) (fun r h => (hg r h).1) true
  simp only [if_true] at hl
  obtain ⟨ts, rest, c1, c2, hf, rfl, hlt, ht⟩ := hl.mp h
  have htm := (langT_tm _ ts c1 (fun r h => (hg r h).2)).mp hlt
  obtain ⟨n, rfl, hn⟩ := tm_inv3 htm
  rw [full_dname] at hn
  split at hn
  · rename_i hdn
    cases hn
    obtain ⟨w, X, c3, c4, rfl, rfl, ⟨hw, rfl⟩, hX⟩ := ht
    obtain ⟨A, rfl, hA⟩ := front_append _ true s w X hf
    have htA : tokens A = ["vreg".toList, "set".toList, n] := by
      rw [front_tokens _ true A w hA (edge_of_blank hw), tokens_blank w hw]; rfl
    obtain ⟨_, Y, c5, c6, rfl, rfl, ⟨_, num1, c7, c8, rfl, rfl, ⟨rfl, rfl⟩, hnum⟩, hY⟩ := hX
    refine ⟨A, num1 ++ Y, n, c8 ++ c6, by simp, ?_, htA, hdn, ?_, by simp⟩
    · intro hm
      rcases mem_tokens hm with h | ⟨t, ht, hx⟩
      · exact absurd h (by decide)
      · rw [htA] at ht
        simp only [List.mem_cons, List.not_mem_nil, or_false] at ht
        rcases ht with rfl | rfl | rfl
        · exact absurd hx (by decide)
        · exact absurd hx (by decide)
        · exact colon_dname hdn hx
    · have hg2 : ∀ r ∈ [num, fw, word], Good r := by
        intro r hr
        simp only [List.mem_cons, List.not_mem_nil, or_false] at hr
        rcases hr with rfl | rfl | rfl
        · exact good_num
        · exact good_fw
        · exact good_word
      have : Lang (line [num, fw, word]) (num1 ++ Y) (c8 ++ c6) :=
        ⟨[], num1 ++ Y, [], c8 ++ c6, rfl, rfl, ⟨rfl, rfl⟩, num1, Y, c8, c6, rfl, rfl, hnum, hY⟩
      exact (langT_tm _ _ _ (fun r h => (hg2 r h).2)).mp
        ((lang_line _ (by simp) (fun r h => (hg2 r h).1) _ _).mp this)
  · cases hn

theorem solid_of_dname {n : Text} (h : isDname n = true) : Solid n :=
  good_dname.1 n [some n] ((is_dname n _).mpr ⟨h, rfl⟩)

theorem num_solid {n : Text} (h : allOf dig n = true) : Solid n :=
  allOf_solid (fun c hc => wrd_sp c (dig_wrd c hc)) h

theorem gap_of_edge {s g t r : Text} (he : Edge s) (h : s = g ++ t ++ r) (ht : Solid t) : g ≠ [] := by
  rintro rfl
  subst h
  rcases he with h0 | ⟨x, q, h0, hx⟩
  · simp only [List.nil_append, List.append_eq_nil_iff] at h0
    exact ht.1 h0.1
  · cases t with
    | nil => exact ht.1 rfl
    | cons y t =>
      simp only [List.nil_append, List.cons_append, List.cons.injEq] at h0
      have := ht.2
      simp only [List.all_cons, Bool.and_eq_true, Bool.not_eq_true'] at this
      rw [← h0.1, this.1] at hx; cases hx

theorem full_vregSet (s n i f v : Text) (hn : isDname n = true) (hi : allOf dig i = true)
    (hf : isFw f = true) (hv : allOf wrd v = true)
    (h : tokens s = ["vreg".toList, "set".toList, n ++ ':' :: i, f, v]) :
    full wrVregRe s = some [some n, some i, some (f.take 1), some (f.drop 1), some v] := by
  obtain ⟨w0, r0, rfl, hw0, _, he0, hr0⟩ := tokens_cons_inv h
  obtain ⟨w1, r1, rfl, hw1, hs1, he1, hr1⟩ := tokens_cons_inv hr0
  have hw10 := gap_of_edge he0 rfl hs1
  obtain ⟨w2, r2, rfl, hw2, hs2, he2, hr2⟩ := tokens_cons_inv hr1
  have hw20 := gap_of_edge he1 rfl hs2
  obtain ⟨w3, r3, rfl, hw3, hs3, he3, hr3⟩ := tokens_cons_inv hr2
  have hw30 := gap_of_edge he2 rfl hs3
  obtain ⟨w4, w5, rfl, hw4, hw40, hs4, hw5⟩ := one_word he3 hr3
  have hsn := solid_of_dname hn
  have hA : tokens (w0 ++ "vreg".toList ++ (w1 ++ "set".toList ++ (w2 ++ n)))
      = ["vreg".toList, "set".toList, n] := by
    rw [tokens_cons w0 _ _ hw0 ⟨by decide, by decide⟩ (by rw [List.append_assoc]; exact edge_gap hw1 hw10),
      tokens_cons w1 _ _ hw1 ⟨by decide, by decide⟩ (edge_gap hw2 hw20)]
    have := tokens_one w2 n [] hw2 hsn rfl
    rw [List.append_nil] at this
    rw [this]
  have hB : tokens (i ++ (w3 ++ f ++ (w4 ++ v ++ w5))) = [i, f, v] := by
    have := tokens_cons [] i (w3 ++ f ++ (w4 ++ v ++ w5)) rfl (num_solid hi)
      (by rw [List.append_assoc]; exact edge_gap hw3 hw30)
    rw [List.nil_append] at this
    rw [this, tokens_cons w3 f _ hw3 hs3 (by rw [List.append_assoc]; exact edge_gap hw4 hw40),
      tokens_one w4 v w5 hw4 hs4 hw5]
  have hcol : ':' ∉ w0 ++ "vreg".toList ++ (w1 ++ "set".toList ++ (w2 ++ n)) := by
    intro hm
    rcases mem_tokens hm with h | ⟨t, ht, hx⟩
    · exact absurd h (by decide)
    · rw [hA] at ht
      simp only [List.mem_cons, List.not_mem_nil, or_false] at ht
      rcases ht with rfl | rfl | rfl
      · exact absurd hx (by decide)
      · exact absurd hx (by decide)
      · exact colon_dname hn hx
  have hsplit : w0 ++ "vreg".toList ++ (w1 ++ "set".toList ++ (w2 ++ (n ++ ':' :: i) ++
      (w3 ++ f ++ (w4 ++ v ++ w5))))
      = (w0 ++ "vreg".toList ++ (w1 ++ "set".toList ++ (w2 ++ n))) ++ ':' ::
        (i ++ (w3 ++ f ++ (w4 ++ v ++ w5))) := by
    simp only [List.append_assoc, List.cons_append]
  have hlang : Lang wrVregRe (w0 ++ "vreg".toList ++ (w1 ++ "set".toList ++ (w2 ++ (n ++ ':' :: i) ++
      (w3 ++ f ++ (w4 ++ v ++ w5))))) [some n, some i, some (f.take 1), some (f.drop 1), some v] := by
    have hl := lang_words [k "vreg", k "set", dname] vsTail (w0 ++ "vreg".toList ++ (w1 ++ "set".toList ++
      (w2 ++ (n ++ ':' :: i) ++ (w3 ++ f ++ (w4 ++ v ++ w5)))))
      [some n, some i, some (f.take 1), some (f.drop 1), some v] (by simp) (by
        intro r hr
        simp only [List.mem_cons, List.not_mem_nil, or_false] at hr
        rcases hr with rfl | rfl | rfl
        · exact (good_k _ (by decide)).1
        · exact (good_k _ (by decide)).1
        · exact good_dname.1) true
    simp only [if_true] at hl
    refine hl.mpr ⟨["vreg".toList, "set".toList, n], ':' :: (i ++ (w3 ++ f ++ (w4 ++ v ++ w5))), [some n], _, ?_, rfl, ?_, ?_⟩
    · exact ⟨w0, _, rfl, hw0, (fun h => by cases h), ⟨by decide, by decide⟩, w1, _, rfl, hw1, fun _ => hw10,
        ⟨by decide, by decide⟩, w2, _, by simp only [List.append_assoc, List.cons_append], hw2, fun _ => hw20, hsn, rfl⟩
    · exact ⟨[], [some n], rfl, ⟨rfl, rfl⟩, [], [some n], rfl, ⟨rfl, rfl⟩, [some n], [], rfl,
        (is_dname n _).mpr ⟨hn, rfl⟩, rfl⟩
    · exact ⟨[], _, [], _, rfl, rfl, ⟨rfl, rfl⟩, ':' :: i, w3 ++ (f ++ (w4 ++ (v ++ w5))), [some i],
        [some (f.take 1), some (f.drop 1), some v], by simp only [List.append_assoc, List.cons_append],
        rfl, ⟨":".toList, i, [], [some i], rfl, rfl, ⟨rfl, rfl⟩, (is_num i _).mpr ⟨hi, rfl⟩⟩,
        w3, _, [], _, rfl, rfl, ⟨hw30, hw3, rfl⟩, f, _, [some (f.take 1), some (f.drop 1)], [some v], rfl, rfl,
        (is_fw f _).mpr ⟨hf, rfl⟩, w4, _, [], _, rfl, rfl, ⟨hw40, hw4, rfl⟩, v, w5, [some v], [], rfl, rfl,
        (is_word v _).mpr ⟨hv, rfl⟩, hw5, rfl⟩
  refine full_eq hlang (fun c' hc' => ?_)
  obtain ⟨A, B, n', cb, hs, hca, htA, _, htB, rfl⟩ := lang_wrVreg _ c' hc'
  rw [hsplit] at hs
  obtain ⟨rfl, rfl⟩ := split_unique hs hcol hca
  rw [hA] at htA
  cases htA
  rw [hB] at htB
  simp only [tm, full_num, full_fw, full_word, hi, hf, hv, if_true, Option.map_some, Option.some.injEq] at htB
  rw [← htB]; rfl

end Verif.Shell
