import Verif.Lemmas.Names
import Verif.Lemmas.Parse
import Verif.Lemmas.Greedy
import Verif.Lemmas.ReadNames
import Verif.Lemmas.CreateKeys
import Verif.Lemmas.Shapes

/-
The names that are read from statements.
-/

namespace Verif
open Verif.Spec

/-! ## Greedy groups -/

theorem starMatch_longest {p : Char → Bool} {k : Str → Option (List Str)} : ∀ {s g : Str} {r : List Str}, (∀ c ∈ s, p c = true) → starMatch p k s = some (g, r) →
    ∃ b, s = g ++ b ∧ k b = some r ∧ ∀ y, y <:+ b → y ≠ b → k y = none
  | [], g, r, _, h => by
    simp only [starMatch, Option.map_eq_some_iff] at h
    obtain ⟨r', hr, e⟩ := h
    cases e
    exact ⟨[], rfl, hr, fun y hy hne => absurd (List.suffix_nil.1 hy) hne⟩
  | x :: xs, g, r, hp, h => by
    simp only [starMatch, hp x (by simp), if_true] at h
    cases hs : starMatch p k xs with
    | some m =>
      rw [hs] at h
      cases h
      obtain ⟨b, e, h1, h2⟩ := starMatch_longest (fun c hc => hp c (by simp [hc])) hs
      exact ⟨b, by simp [e], h1, h2⟩
    | none =>
      rw [hs] at h
      simp only [Option.map_eq_some_iff] at h
      obtain ⟨r', hr, e⟩ := h
      cases e
      refine ⟨x :: xs, rfl, hr, fun y hy hne => ?_⟩
      rcases List.suffix_cons_iff.1 hy with hy | hy
      · exact absurd hy hne
      · cases hk : k y with
        | none => rfl
        | some r2 =>
          exfalso
          obtain ⟨a, e⟩ := hy
          have key : ∀ (a : Str), (∀ c ∈ a, p c = true) → starMatch p k (a ++ y) ≠ none := by
            intro a
            induction a with
            | nil =>
              intro _ h
              cases y with
              | nil => simp [starMatch, hk] at h
              | cons z y =>
                simp only [List.nil_append, starMatch] at h
                split at h
                · split at h <;> simp [hk] at h
                · simp [hk] at h
            | cons z a ih =>
              intro ha h
              simp only [List.cons_append, starMatch, ha z (by simp), if_true] at h
              split at h
              · cases h
              · rename_i h2
                exact ih (fun c hc => ha c (by simp [hc])) h2
          exact key a (fun c hc => hp c (by rw [← e]; simp [hc])) (by rw [e]; exact hs)

/-- A dotted star takes as much as it can. -/
theorem reMatch_longest {cap : Bool} {ts : List Tok} {s : Str} {gs : List Str} (hn : '\n' ∉ s) (h : reMatch (.star true cap :: ts) s = some gs) :
    ∃ a b r, s = a ++ b ∧ reMatch ts b = some r ∧ gs = starGroups cap (a, r) ∧ ∀ y, y <:+ b → y ≠ b → reMatch ts y = none := by
  simp only [reMatch, Option.map_eq_some_iff] at h
  obtain ⟨⟨a, r⟩, hm, rfl⟩ := h
  obtain ⟨b, e, h1, h2⟩ := starMatch_longest (fun c hc => by
    simp only [starAccepts, if_true]
    exact decide_eq_true (by rintro rfl; exact hn hc)) hm
  exact ⟨a, b, r, e, h1, rfl, h2⟩

/-- The groups of the end of a pattern come from the end of the text. -/
theorem reMatch_tail : ∀ {ts us : List Tok} {s : Str} {gs : List Str}, reMatch (ts ++ us) s = some gs →
    ∃ s' gs1 gs2, s' <:+ s ∧ reMatch us s' = some gs2 ∧ gs = gs1 ++ gs2
  | [], us, s, gs, h => ⟨s, [], gs, List.suffix_refl _, h, rfl⟩
  | .ch c :: ts, us, [], gs, h => by simp [reMatch] at h
  | .ch c :: ts, us, x :: xs, gs, h => by
    simp only [List.cons_append, reMatch] at h
    split at h
    · obtain ⟨s', g1, g2, h1, h2, h3⟩ := reMatch_tail h
      exact ⟨s', g1, g2, h1.trans (List.suffix_cons x xs), h2, h3⟩
    · cases h
  | .star d cap :: ts, us, s, gs, h => by
    simp only [List.cons_append, reMatch, Option.map_eq_some_iff] at h
    obtain ⟨m, hm, rfl⟩ := h
    obtain ⟨rest, e, hk, -⟩ := starMatch_some hm
    obtain ⟨s', g1, g2, h1, h2, h3⟩ := reMatch_tail hk
    refine ⟨s', (if cap then m.1 :: g1 else g1), g2, h1.trans ⟨m.1, e.symm⟩, h2, ?_⟩
    unfold starGroups
    split <;> simp [h3]

theorem reMatch_close {a b : Str} (ha : '\n' ∉ a) : reMatch (.star true true :: (lit c!")" ++ [])) (a ++ ')' :: b) ≠ none := by
  intro h
  simp only [reMatch, Option.map_eq_none_iff] at h
  have key : ∀ a : Str, '\n' ∉ a → starMatch (starAccepts true) (reMatch (lit c!")" ++ [])) (a ++ ')' :: b) ≠ none := by
    intro a
    induction a with
    | nil =>
      intro _ h
      simp only [List.nil_append, starMatch] at h
      split at h
      · split at h
        · cases h
        · simp [lit, reMatch, eqCi] at h
      · simp [lit, reMatch, eqCi] at h
    | cons x a ih =>
      intro ha h
      simp only [List.mem_cons, not_or] at ha
      have hx : starAccepts true x = true := by
        simp only [starAccepts, if_true]
        exact decide_eq_true (fun e => ha.1 e.symm)
      simp only [List.cons_append, starMatch, hx, if_true] at h
      split at h
      · cases h
      · rename_i h2
        exact ih ha.2 h2
  exact key a ha h

/-- The last parentheses of a text have no opening parenthesis inside. -/
theorem last_parens {s g : Str} (hn : '\n' ∉ s) (h : reMatch (dots ++ (lit c!"(" ++ (group ++ lit c!")"))) s = some [g]) : '(' ∉ g := by
  obtain ⟨a, b, r, e, h1, h2, h3⟩ := reMatch_longest (cap := false) (ts := lit c!"(" ++ (group ++ lit c!")")) hn h
  have hr : r = [g] := by simpa [starGroups] using h2.symm
  subst hr
  intro hm
  -- b = '(' :: b', the group takes g from b'
  rw [reMatch_lit] at h1
  split at h1
  · rename_i hp
    have hnb : '\n' ∉ b.drop 1 := fun hc => hn (by rw [e]; exact List.mem_append_right _ (List.mem_of_mem_drop hc))
    obtain ⟨a', b', r', e', h1', h2', -⟩ := reMatch_longest (cap := true) (ts := lit c!")") hnb h1
    simp only [starGroups, if_true, List.cons.injEq] at h2'
    obtain ⟨rfl, hr'⟩ := h2'
    have hb' : ∃ b2, b' = ')' :: b2 := by
      have := reMatch_lit c!")" [] b'
      rw [List.append_nil] at this
      rw [this] at h1'
      split at h1'
      · rename_i hp'
        cases b' with
        | nil => simp [lower] at hp'
        | cons x b2 =>
          simp only [lower, List.map_cons, List.map_nil, List.cons_prefix_cons] at hp'
          have := (lowerC_special (c := x) (d := ')') (by decide) (by decide)).1 (by rw [← hp'.1]; decide)
          exact ⟨b2, by rw [this]⟩
      · cases h1'
    obtain ⟨b2, rfl⟩ := hb'
    obtain ⟨u, v, hg⟩ := List.append_of_mem hm
    have hy : '(' :: (v ++ ')' :: b2) <:+ b := by
      refine List.IsSuffix.trans ⟨u, ?_⟩ (List.drop_suffix 1 b)
      show _ = b.drop 1
      rw [e', hg]
      simp
    have hne : '(' :: (v ++ ')' :: b2) ≠ b := by
      intro eq
      have := congrArg List.length e'
      rw [← eq, hg] at this
      simp at this
      omega
    have := h3 _ hy hne
    rw [reMatch_lit, if_pos (by simp [lower])] at this
    refine reMatch_close (a := v) (b := b2) (fun hc => ?_) this
    refine hnb ?_
    rw [e', hg]; simp [hc]
  · cases h1

/-- The condition of a relationship does not contain the word AS between blanks. -/
theorem condition_group {s t c : Str} (hn : '\n' ∉ s) (h : reMatch (group ++ (lit c!" as " ++ group)) s = some [t, c]) :
    Lacks c!" as " (' ' :: c) ∧ ' ' :: c <:+ s := by
  obtain ⟨a, b, r, e, h1, h2, h3⟩ := reMatch_longest (cap := true) (ts := lit c!" as " ++ group) hn h
  simp only [starGroups, if_true, List.cons.injEq] at h2
  obtain ⟨rfl, hr⟩ := h2
  subst hr
  have hb : b <:+ s := ⟨t, e.symm⟩
  rw [reMatch_lit] at h1
  split at h1
  · rename_i hp
    have hnb : '\n' ∉ b.drop 4 := fun hc => hn (hb.subset (List.mem_of_mem_drop hc))
    have h1' : reMatch group (b.drop 4) = some [c] := h1
    rw [reMatch_rest hnb] at h1'
    simp only [Option.some.injEq, List.cons.injEq, and_true] at h1'
    subst h1'
    have hlen : 4 ≤ b.length := by simpa [lower] using hp.length_le
    have hblank : ' ' :: b.drop 4 = b.drop 3 := by
      rw [List.drop_eq_getElem_cons (i := 3) (by omega)]
      congr 1
      have h3 : (lower b)[3]'(by simp [lower]; omega) = ' ' := by
        obtain ⟨z, hz⟩ := hp
        simp only [← hz]
        rfl
      simp only [lower, List.getElem_map] at h3
      exact ((lowerC_special (d := ' ') (by decide) (by decide)).1 h3).symm
    rw [hblank]
    refine ⟨?_, (List.drop_suffix 3 b).trans hb⟩
    rw [without_eq]
    rintro ⟨x, y, hxy⟩
    have hlow : lower (b.drop 3) = x ++ (c!" as " ++ y) := by rw [← hxy]; simp
    have hd : lower ((b.drop 3).drop x.length) = c!" as " ++ y := by
      rw [lower, List.map_drop, ← lower, hlow, List.drop_left]
    have hy : (b.drop 3).drop x.length <:+ b := (List.drop_suffix _ _).trans (List.drop_suffix _ _)
    have hne : (b.drop 3).drop x.length ≠ b := by
      intro eq
      have hl := congrArg List.length eq
      rw [List.length_drop, List.length_drop] at hl
      omega
    have := h3 _ hy hne
    rw [reMatch_lit, if_pos (by rw [hd]; exact List.prefix_append _ _)] at this
    rw [reMatch_rest (fun hc => hn (hb.subset (hy.subset (List.mem_of_mem_drop hc))))] at this
    cases this
  · cases h1

theorem reMatch_length : ∀ {ts : List Tok} {s : Str} {gs : List Str}, reMatch ts s = some gs → gs.length = (ts.filter (fun t => match t with | .star _ true => true | _ => false)).length
  | [], s, gs, h => by simp only [reMatch, Option.some.injEq] at h; subst h; rfl
  | .ch c :: ts, [], gs, h => by simp [reMatch] at h
  | .ch c :: ts, x :: xs, gs, h => by
    simp only [reMatch] at h
    split at h
    · rw [reMatch_length h, List.filter_cons_of_neg (by simp)]
    · cases h
  | .star d cap :: ts, s, gs, h => by
    simp only [reMatch, Option.map_eq_some_iff] at h
    obtain ⟨m, hm, rfl⟩ := h
    obtain ⟨rest, e, hk, -⟩ := starMatch_some hm
    have := reMatch_length hk
    cases cap
    · rw [List.filter_cons_of_neg (by simp)]; exact this
    · rw [List.filter_cons_of_pos (by simp)]; simp only [starGroups, if_true, List.length_cons]; omega

/-! ## Names -/

theorem Spec.Bare.union {A B C n : Str} (hA : Bare A n) (hB : Bare B n) (h : ∀ c ∈ C, c ∈ A ∨ c ∈ B) : Bare C n :=
  fun c hc hC => (h c hC).elim (hA c hc) (hB c hc)

theorem cleanName_bare {bad s : Str} (h : Bare bad s) : Bare bad (cleanName s) := by
  intro c hc
  unfold cleanName at hc
  rw [replaces_filter] at hc
  exact h c (((strip_infix _).trans getLastD_splitC_infix).subset (List.mem_of_mem_filter hc))

theorem cleanName_bare' (s : Str) : Bare c!".\t\"'[]" (cleanName s) := by
  intro c hc
  unfold cleanName at hc
  rw [replaces_filter] at hc
  have h1 : c ∈ (splitC '.' s).getLastD [] := (strip_infix _).subset (List.mem_of_mem_filter hc)
  have h2 : '.' ∉ (splitC '.' s).getLastD [] := by
    have := splitC_ne_nil '.' s
    rw [List.getLastD_eq_getLast?, List.getLast?_eq_some_getLast this]
    exact not_mem_splitC _ (List.getLast_mem this)
  have h3 := (List.mem_filter.1 hc).2
  intro hb
  simp only [List.mem_cons, List.not_mem_nil, or_false] at hb
  rcases hb with rfl | rfl | rfl | rfl | rfl | rfl
  · exact h2 h1
  all_goals exact absurd h3 (by decide)

theorem cleanName_plain {s : Str} (h : Bare c!";\t\n\r" s) : Bare c!".\"'[];\t\n\r" (cleanName s) :=
  (cleanName_bare' s).union (cleanName_bare h) (by decide)

theorem cleanNames_bare {bad s : Str} (h : Bare bad s) {n : Str} (hn : n ∈ cleanNames s) : Bare bad n ∧ Bare c!",.\t\"'[]" n := by
  unfold cleanNames at hn
  obtain ⟨p, hp, rfl⟩ := List.mem_map.1 hn
  have hc : Bare c!"," (cleanName p) := cleanName_bare (fun c hc hb => not_mem_splitC p hp (by rw [List.mem_singleton.1 hb] at hc; exact hc))
  exact ⟨cleanName_bare (h.infix (splitC_infix hp)), (cleanName_bare' p).union hc (by decide)⟩

theorem extractTableName_name {s n : Str} (h : Bare c!";\t\n\r" s) (he : extractTableName s = some n) : Bare c!".\"'[];\t\n\r" n := by
  unfold extractTableName at he
  simp only [Option.map_eq_some_iff] at he
  obtain ⟨m, hm, rfl⟩ := he
  exact cleanName_plain (h.infix ((extractName_infix hm).trans getLastD_splitC_infix))

/-! ## CREATE TABLE -/

theorem ub_text {s : Str} (h : StatementText s) : Bare c!"[];\t\n\r" (s.map ub) ∧ ¬ c!"  " <:+: s.map ub := by
  refine ⟨fun c hc hb => ?_, fun hi => h.single ((infix_map (fun d hd c => ?_)).1 hi)⟩
  · obtain ⟨x, hx, rfl⟩ := List.mem_map.1 hc
    have := h.chars x hx
    unfold ub at hb
    split at hb
    · revert hb; decide
    · rename_i hne
      simp only [not_or] at hne
      simp only [List.mem_cons, List.not_mem_nil, or_false] at hb this
      tauto
  · have : d = ' ' := by simpa using hd
    subst this
    exact ub_iff (by decide) (by decide) (by decide) c

theorem stripQuotes_filter (s : Str) : stripQuotes s = s.filter (fun c => c ≠ '"' && (c ≠ '`' && c ≠ '\'')) := by
  unfold stripQuotes
  rw [replace_char_nil, replace_char_nil, replace_char_nil, List.filter_filter, List.filter_filter]
  refine List.filter_congr (fun c _ => ?_)
  simp only [Bool.and_assoc]

theorem pySlice_infix (s : Str) (i j : Int) : pySlice s i j <:+: s :=
  (List.drop_suffix _ _).isInfix.trans (List.take_prefix _ _).isInfix

theorem getTableName_name {s : Str} (h : Bare c!"[];\t\n\r" s) : TableName (getTableName s) := by
  have hp : '(' ∉ pySlice s 0 (pyFind c!"(" s) ∧ ∀ c ∈ pySlice s 0 (pyFind c!"(" s), c ∈ s := by
    by_cases hm : '(' ∈ s
    · obtain ⟨a, b, rfl, ha⟩ := List.eq_append_cons_of_mem hm
      rw [pyFind_char ha, pySlice_zero, List.take_left]
      exact ⟨ha, fun c hc => by simp [hc]⟩
    · refine ⟨fun hc => hm ?_, fun c hc => ?_⟩
      · exact (pySlice_infix _ _ _).subset hc
      · exact (pySlice_infix _ _ _).subset hc
  unfold getTableName
  dsimp only
  rw [stripQuotes_filter]
  intro c hc
  obtain ⟨h1, h2⟩ := List.mem_filter.1 hc
  have h3 : '.' ∉ (splitC '.' ((rstrip (pySlice s 0 (pyFind c!"(" s))).drop (if hasSub c!"or replace" (lower (rstrip (pySlice s 0 (pyFind c!"(" s)))) then c!"create or replace table ".length else c!"create table ".length))).getLastD [] := by
    have := splitC_ne_nil '.' ((rstrip (pySlice s 0 (pyFind c!"(" s))).drop (if hasSub c!"or replace" (lower (rstrip (pySlice s 0 (pyFind c!"(" s)))) then c!"create or replace table ".length else c!"create table ".length))
    rw [List.getLastD_eq_getLast?, List.getLast?_eq_some_getLast this]
    exact not_mem_splitC _ (List.getLast_mem this)
  have h4 : c ∈ pySlice s 0 (pyFind c!"(" s) := (rstrip_prefix _).subset (List.mem_of_mem_drop (getLastD_splitC_infix.subset h1))
  have h5 := h c (hp.2 c h4)
  intro hb
  simp only [List.mem_cons, List.not_mem_nil, or_false] at hb h5
  rcases hb with rfl | rfl | rfl | rfl | rfl | hb
  · exact hp.1 h4
  · exact h3 h1
  · simp at h2
  · simp at h2
  · simp at h2
  · tauto

/-- Every comma stands in parentheses. -/
def CommasIn (s : Str) : Prop := ∀ a b, s = a ++ ',' :: b → ∃ x y, a = x ++ '(' :: y ∧ ')' ∉ y

theorem CommasIn.middle {p n q : Str} (h : CommasIn (p ++ n ++ q)) (hp : '(' ∉ p) : CommasIn n := by
  intro a b e
  obtain ⟨x, y, exy, hy⟩ := h (p ++ a) (b ++ q) (by rw [e]; simp)
  rcases List.append_eq_append_iff.1 exy with ⟨u, h1, h2⟩ | ⟨u, h1, h2⟩
  · exact ⟨u, y, h2, hy⟩
  · cases u with
    | nil => exact ⟨[], y, by simpa using h2.symm, hy⟩
    | cons z u =>
      simp only [List.cons_append, List.cons.injEq] at h2
      exact absurd (by rw [h1, h2.1]; simp) hp

theorem rawFieldsGo_mem : ∀ (t : Str) (o : Bool) (cur : Str), (o = true → ∃ x y, cur = x ++ '(' :: y ∧ ')' ∉ y) → CommasIn cur →
    ∀ f ∈ rawFieldsGo o cur t, ∃ w, f = strip w ∧ CommasIn w ∧ w <:+: cur ++ t
  | [], o, cur, _, hc, f, hf => by
    unfold rawFieldsGo at hf
    split at hf
    · exact ⟨cur, by simpa using hf, hc, by simp⟩
    · cases hf
  | c :: t, true, cur, ho, hc, f, hf => by
    obtain ⟨x, y, e, hy⟩ := ho rfl
    unfold rawFieldsGo at hf
    have grow : CommasIn (cur ++ [c]) := by
      intro a b eab
      rcases List.eq_nil_or_concat b with rfl | ⟨b', d, rfl⟩
      · have := List.append_inj' eab rfl
        exact ⟨x, y, by rw [← this.1, e], hy⟩
      · rw [List.concat_eq_append, ← List.cons_append, ← List.append_assoc] at eab
        exact hc a b' (List.append_inj' eab rfl).1
    obtain ⟨w, h1, h2, h3⟩ := rawFieldsGo_mem t _ (cur ++ [c]) (fun hn => ⟨x, y ++ [c], by rw [e]; simp, by
      simp only [List.mem_append, List.mem_singleton, not_or]
      exact ⟨hy, fun hcc => by simp [← hcc] at hn⟩⟩) grow f hf
    exact ⟨w, h1, h2, by simpa using h3⟩
  | c :: t, false, cur, ho, hc, f, hf => by
    have grow : c ≠ ',' → CommasIn (cur ++ [c]) := by
      intro hne a b eab
      rcases List.eq_nil_or_concat b with rfl | ⟨b', d, rfl⟩
      · have := (List.append_inj' eab rfl).2
        simp only [List.cons.injEq, and_true] at this
        exact absurd this hne
      · rw [List.concat_eq_append, ← List.cons_append, ← List.append_assoc] at eab
        exact hc a b' (List.append_inj' eab rfl).1
    unfold rawFieldsGo at hf
    split at hf
    · rename_i e
      subst e
      obtain ⟨w, h1, h2, h3⟩ := rawFieldsGo_mem t true (cur ++ ['(']) (fun _ => ⟨cur, [], rfl, by simp⟩) (grow (by decide)) f hf
      exact ⟨w, h1, h2, by simpa using h3⟩
    · split at hf
      · rcases List.mem_cons.1 hf with rfl | hf
        · exact ⟨cur, rfl, hc, (List.prefix_append _ _).isInfix⟩
        · obtain ⟨w, h1, h2, h3⟩ := rawFieldsGo_mem t false [] (by simp) (fun a b e => by simp at e) f hf
          exact ⟨w, h1, h2, h3.trans ⟨cur ++ [c], [], by simp⟩⟩
      · rename_i hne
        obtain ⟨w, h1, h2, h3⟩ := rawFieldsGo_mem t false (cur ++ [c]) (by simp) (grow hne) f hf
        exact ⟨w, h1, h2, by simpa using h3⟩

theorem rawFields_mem {s f : Str} (h : f ∈ rawFields s) : f <:+: s ∧ CommasIn f ∧ Trim f := by
  obtain ⟨w, rfl, h2, h3⟩ := rawFieldsGo_mem _ false [] (by simp) (fun a b e => by simp at e) f h
  obtain ⟨a, b, ha, -, e⟩ := strip_decomp w
  refine ⟨(strip_infix w).trans (h3.trans ((strip_infix _).trans (pySlice_infix _ _ _))), ?_, strip_trim w⟩
  have h2' : CommasIn (a ++ strip w ++ b) := by rw [← e]; exact h2
  exact h2'.middle (fun hc => absurd (ha _ hc) (by decide))

theorem pySlice_one (d : Char) (t : Str) (j : Int) : ∃ k, pySlice (d :: t) 1 j = t.take k := by
  unfold pySlice
  rw [show sliceBound (d :: t).length 1 = 1 from by simp [sliceBound]]
  cases sliceBound (d :: t).length j with
  | zero => exact ⟨0, rfl⟩
  | succ m => exact ⟨m, rfl⟩

theorem fieldColumn_name {rf : Str} {c : Column} (h : fieldColumn rf = .ok c) (hb : Bare c!"[];\t\n\r" rf) (hs : ¬ c!"  " <:+: rf)
    (hk : Lacks c!"key " rf) (hd : Lacks c!"create database" rf) (hc : CommasIn rf) (ht : Trim rf) : ColumnName c.name := by
  unfold fieldColumn at h
  split at h
  · cases h
  · rename_i d t
    dsimp only at h
    split at h
    · cases h
    · rename_i ty hty
      rw [mkColumn_type h]
      dsimp only
      by_cases hq : (d == '"' || d == '\'' || d == '`') = true
      · rw [if_pos hq]
        have hqd : d = '"' ∨ d = '\'' ∨ d = '`' := by simpa [or_assoc] using hq
        have hn : ∃ q, d :: t = [d] ++ pySlice (d :: t) 1 (pyFindFrom [d] (d :: t) 1) ++ q ∧ d ∉ pySlice (d :: t) 1 (pyFindFrom [d] (d :: t) 1) := by
          by_cases hm : d ∈ t
          · obtain ⟨a, b, rfl, ha⟩ := List.eq_append_cons_of_mem hm
            have h1 := pyFindFrom_char (c := d) (pre := [d]) (a := a) (b := b) (start := 1) rfl ha
            rw [show d :: (a ++ d :: b) = [d] ++ (a ++ d :: b) from rfl, h1]
            have h2 := pySlice_nat ([d] ++ (a ++ d :: b)) 1 (1 + a.length)
            rw [show ((1 : Nat) : Int) = 1 from rfl] at h2
            rw [h2, Nat.add_comm, List.singleton_append, List.take_succ_cons, List.drop_succ_cons, List.drop_zero, List.take_left]
            exact ⟨d :: b, by simp, ha⟩
          · obtain ⟨k, hk'⟩ := pySlice_one d t (pyFindFrom [d] (d :: t) 1)
            rw [hk']
            exact ⟨t.drop k, by simp, fun h' => hm (List.mem_of_mem_take h')⟩
        obtain ⟨q, e, hne⟩ := hn
        have hi : pySlice (d :: t) 1 (pyFindFrom [d] (d :: t) 1) <:+: d :: t := pySlice_infix _ _ _
        refine ⟨hb.infix hi, fun h' => hs (h'.trans hi), lacks_infix hk hi, lacks_infix hd hi, ?_, Or.inl ⟨d, by simpa using hqd, hne⟩⟩
        rw [e] at hc
        exact hc.middle (by rcases hqd with rfl | rfl | rfl <;> decide)
      · rw [if_neg hq]
        have hqd : d ∉ c!"\"'`" := by simpa [or_assoc] using hq
        have hn : ∃ q, d :: t = [] ++ pySlice (d :: t) 0 (pyFind c!" " (d :: t)) ++ q ∧ ' ' ∉ pySlice (d :: t) 0 (pyFind c!" " (d :: t)) := by
          by_cases hm : ' ' ∈ d :: t
          · obtain ⟨a, b, e, ha⟩ := List.eq_append_cons_of_mem hm
            rw [e, pyFind_char ha, pySlice_zero, List.take_left]
            exact ⟨' ' :: b, rfl, ha⟩
          · refine ⟨(d :: t).drop (sliceBound (d :: t).length (pyFind c!" " (d :: t))), ?_, fun h' => hm ((pySlice_infix _ _ _).subset h')⟩
            simp [pySlice, sliceBound]
        obtain ⟨q, e, hne⟩ := hn
        have hi : pySlice (d :: t) 0 (pyFind c!" " (d :: t)) <:+: d :: t := pySlice_infix _ _ _
        refine ⟨hb.infix hi, fun h' => hs (h'.trans hi), lacks_infix hk hi, lacks_infix hd hi, ?_, Or.inr ⟨hne, fun x hx => ?_⟩⟩
        · rw [e] at hc
          exact hc.middle (by simp)
        · have : d = x := by
            have e' := congrArg List.head? e
            rw [List.nil_append, List.head?_append, hx] at e'
            simpa using e'
          subst this
          exact ⟨hqd, ht.1 d rfl⟩

theorem fieldKeys_name {rf n : Str} (hb : Bare c!"[];\t\n\r" rf) (h : n ∈ fieldKeys rf) : PrimaryName n := by
  unfold fieldKeys at h
  have h1 := splitC_infix h
  have h2 := not_mem_splitC n h
  rw [replace_char_nil, replace_char_nil, List.filter_filter] at h1
  have hp : ')' ∉ (partitionS c!")" (partitionS c!"(" rf).2.2).1 := by
    by_cases hm : ')' ∈ (partitionS c!"(" rf).2.2
    · obtain ⟨a, b, e, ha⟩ := List.eq_append_cons_of_mem hm
      rw [e, partitionS_char ha]; exact ha
    · exact fun h' => hm ((partitionS_infix _ _).1.subset h')
  have hmem : ∀ c ∈ n, c ∈ (partitionS c!")" (partitionS c!"(" rf).2.2).1 ∧ c ≠ '"' ∧ c ≠ ' ' := by
    intro c hc
    have := List.mem_filter.1 (h1.subset hc)
    simpa using this
  have hall : ∀ c ∈ n, c ∉ c!",\"[];\t\n\r )" := by
    intro c hc hb'
    obtain ⟨h3, h4, h5⟩ := hmem c hc
    have h6 := hb c (((partitionS_infix _ _).1.trans (partitionS_infix _ _).2).subset h3)
    simp only [List.mem_cons, List.not_mem_nil, or_false] at hb' h6
    rcases hb' with rfl | rfl | rfl | rfl | rfl | rfl | rfl | rfl | rfl | rfl
    · exact h2 hc
    · exact h4 rfl
    · simp at h6
    · simp at h6
    · simp at h6
    · simp at h6
    · simp at h6
    · simp at h6
    · exact h5 rfl
    · exact hp h3
  exact ⟨fun c hc hb' => hall c hc (by revert hb'; simp; tauto), Or.inl (fun c hc hb' => hall c hc (by revert hb'; simp; tauto))⟩

theorem addField_names {acc acc' : Table × List Column} {rf : Str} (h : addField acc rf = .ok acc') (hb : Bare c!"[];\t\n\r" rf) (hs : ¬ c!"  " <:+: rf)
    (hd : Lacks c!"create database" rf) (hc : CommasIn rf) (ht : Trim rf) (h1 : Nameable acc.1) (h2 : ∀ c ∈ acc.2, ColumnName c.name) :
    Nameable acc'.1 ∧ ∀ c ∈ acc'.2, ColumnName c.name := by
  unfold addField at h
  dsimp only at h
  split at h
  · split at h
    · cases h
      exact ⟨⟨h1.name, h1.columns, fun n hn => fieldKeys_name hb hn, h1.shard, h1.foreign, h1.relationships⟩, h2⟩
    · cases h; exact ⟨h1, h2⟩
  · rename_i hk
    split at h
    · cases h
    · rename_i c hcol
      cases h
      refine ⟨h1, fun x hx => ?_⟩
      rcases List.mem_append.1 hx with hx | hx
      · exact h2 x hx
      · rw [List.mem_singleton.1 hx]
        exact fieldColumn_name hcol hb hs (without_eq.2 (fun hi => hk (hasSub_iff.2 hi))) hd hc ht

theorem foldlM_addField_names (l : List Str) : ∀ {acc acc' : Table × List Column}, l.foldlM addField acc = Except.ok acc' →
    (∀ rf ∈ l, Bare c!"[];\t\n\r" rf ∧ ¬ c!"  " <:+: rf ∧ Lacks c!"create database" rf ∧ CommasIn rf ∧ Trim rf) → Nameable acc.1 → (∀ c ∈ acc.2, ColumnName c.name) →
    Nameable acc'.1 ∧ ∀ c ∈ acc'.2, ColumnName c.name := by
  induction l with
  | nil => intro acc acc' h _ h1 h2; cases h; exact ⟨h1, h2⟩
  | cons rf l ih =>
    intro acc acc' h hl h1 h2
    rw [List.foldlM_cons] at h
    cases ha : addField acc rf with
    | error e => rw [ha] at h; cases h
    | ok a =>
      rw [ha] at h
      obtain ⟨g1, g2, g3, g4, g5⟩ := hl rf (by simp)
      obtain ⟨k1, k2⟩ := addField_names ha g1 g2 g3 g4 g5 h1 h2
      exact ih h (fun x hx => hl x (by simp [hx])) k1 k2

theorem addColumns_names (cs : List Column) : ∀ {t : Table}, Nameable t → (∀ c ∈ cs, ColumnName c.name) → Nameable (t.addColumns cs) := by
  unfold Table.addColumns
  induction cs with
  | nil => intro t h _; exact h
  | cons c cs ih =>
    intro t h hc
    rw [List.foldl_cons]
    refine ih ⟨h.name, fun q hq => ?_, h.primary, h.shard, h.foreign, h.relationships⟩ (fun x hx => hc x (by simp [hx]))
    rcases Dict.mem_set_of hq with rfl | hq
    · exact hc c (by simp)
    · exact h.columns q hq

/-- The last two groups of a pattern that ends with parentheses. -/
theorem last_group {ts : List Tok} {s : Str} {gs : List Str} {g : Str} (hn : '\n' ∉ s) (h : reMatch (ts ++ (dots ++ (lit c!"(" ++ (group ++ lit c!")")))) s = some (gs ++ [g])) : '(' ∉ g := by
  obtain ⟨s', g1, g2, h1, h2, h3⟩ := reMatch_tail h
  have hl : g2.length = 1 := by rw [reMatch_length h2]; rfl
  match g2, hl with
  | [x], _ =>
    have := (List.append_inj' h3 rfl).2
    simp only [List.cons.injEq, and_true] at this
    subst this
    exact last_parens (fun hc => hn (h1.subset hc)) h2

theorem addHashKey_names {t : Table} {s : Str} (h : Nameable t) (hb : Bare c!"[];\t\n\r" s) : Nameable (addHashKey t s) := by
  unfold addHashKey
  split
  · rename_i n keys hr
    split
    · refine ⟨h.name, h.columns, h.primary, fun k hk => ?_, h.foreign, h.relationships⟩
      cases hk
      intro x hx
      obtain ⟨r, h1, h2⟩ := reSearch_suffix hr
      have hb' := hb.infix h1.isInfix
      have hp : '(' ∉ keys := last_group (ts := lit c!"create table" ++ dots ++ lit c!"partition by hash" ++ dots ++ lit c!"(" ++ group ++ lit c!") key") (gs := [n])
        (fun hc => hb' _ hc (by simp)) h2
      have hk : Bare c!"([];\t\n\r" keys := by
        intro c hc hbad
        rcases List.mem_cons.1 hbad with rfl | hbad
        · exact hp hc
        · exact hb'.infix (reMatch_infix h2 keys (by simp)) c hc hbad
      exact (cleanNames_bare hk hx).1.union (cleanNames_bare hk hx).2 (by decide)
    · exact h
  · exact h

theorem parseCreateTable_names {schema : Str} {db db' : Database} {stmt : Str} (h : ∀ p ∈ db.tables, Nameable p.2) (hs : StatementText stmt) (hd : Lacks c!"create database" stmt)
    (hp : parseCreateTable schema db stmt = .ok db') : ∀ p ∈ db'.tables, Nameable p.2 := by
  unfold Verif.parseCreateTable addColumnsOf mkTable at hp
  dsimp only [bind, Except.bind] at hp
  rw [unbracket] at hp
  obtain ⟨hb, hsg⟩ := ub_text hs
  have hd' : Lacks c!"create database" (stmt.map ub) := (lacks_ub (by decide)).2 hd
  split at hp
  · cases hp
  · rename_i t ht
    split at ht
    · cases ht
    · rename_i acc hacc
      cases ht
      obtain ⟨g1, g2⟩ := foldlM_addField_names _ hacc (fun rf hrf => by
        obtain ⟨h1, h2, h3⟩ := rawFields_mem hrf
        exact ⟨hb.infix h1, fun h' => hsg (h'.trans h1), lacks_infix hd' h1, h2, h3⟩)
        ⟨getTableName_name hb, by simp, by simp, by simp, by simp, by simp⟩ (by simp)
      have ok := addColumns_names _ g1 g2
      cases hp
      intro p hp
      rcases Dict.mem_set_of hp with rfl | hp
      · dsimp only
        split
        · exact addHashKey_names ok hb
        · exact ok
      · exact h p hp

/-! ## ALTER TABLE -/

theorem updateTable_names {db : Database} {n : Str} {f : Table → Table} (h : ∀ p ∈ db.tables, Nameable p.2) (hf : ∀ t, Nameable t → Nameable (f t)) :
    ∀ p ∈ (db.updateTable n f).tables, Nameable p.2 := by
  intro p hp
  obtain ⟨q, hq, e, h1 | h1⟩ := mem_updateTable hp
  · rw [h1.2]; exact hf _ (h q hq)
  · rw [h1.2]; exact h q hq

theorem addPrimaryKey_names {db : Database} {stmt : Str} (h : ∀ p ∈ db.tables, Nameable p.2) (hs : StatementText stmt) : ∀ p ∈ (addPrimaryKey db stmt).tables, Nameable p.2 := by
  unfold addPrimaryKey
  split
  · rename_i tn keys hr
    split
    · refine updateTable_names h (fun t ht => ⟨ht.name, ht.columns, fun n hn => ?_, ht.shard, ht.foreign, ht.relationships⟩)
      have hp : '(' ∉ keys := last_group (ts := lit c!"alter table " ++ group ++ lit c!" " ++ dots ++ lit c!"primary key") (gs := [tn])
        (fun hc => hs.chars _ hc (by simp)) hr
      have hk : Bare c!"(;\t\n\r" keys := by
        intro c hc hbad
        rcases List.mem_cons.1 hbad with rfl | hbad
        · exact hp hc
        · exact hs.chars.infix (reMatch_infix hr keys (by simp)) c hc hbad
      obtain ⟨h1, h2⟩ := cleanNames_bare hk hn
      exact ⟨h1.union h2 (by decide), Or.inr (h1.union h2 (by decide))⟩
    · exact h
  · exact h

theorem stripChars_within (p : Char → Bool) (s : Str) : stripChars p s <:+: s := by
  obtain ⟨a, b, e, -⟩ := stripChars_pad p s
  exact ⟨a, b, by rw [List.append_assoc]; exact e.symm⟩

theorem readConstraint_names {c : Str} {k : Option Str × List Str × Str × List Str} (hb : Bare c!";\t\n\r" c) (h : readConstraint c = some k) :
    (∀ n, k.1 = some n → Bare c!".\"'[];\t\n\r" n) ∧ Bare c!".\"'[];\t\n\r" k.2.2.1 ∧ ∀ n ∈ k.2.1 ++ k.2.2.2, Bare c!",.\"'[];\t\n\r" n := by
  unfold readConstraint at h
  dsimp only at h
  have hi : strip (stripChars (· == ';') (stripChars (· == ',') (strip c))) <:+: c :=
    (strip_infix _).trans ((stripChars_within _ _).trans ((stripChars_within _ _).trans (strip_infix _)))
  have hb' := hb.infix hi
  have names : ∀ {g n : Str}, g <:+: strip (stripChars (· == ';') (stripChars (· == ',') (strip c))) → n ∈ cleanNames g → Bare c!",.\"'[];\t\n\r" n :=
    fun hg hn => (cleanNames_bare (hb'.infix hg) hn).1.union (cleanNames_bare (hb'.infix hg) hn).2 (by decide)
  split at h
  · rename_i n fk tt tk hr
    have g := reMatch_infix hr
    simp only [Option.map_eq_some_iff] at h
    obtain ⟨u, hu, rfl⟩ := h
    refine ⟨fun m hm => ?_, extractTableName_name (hb'.infix (g tt (by simp))) hu, fun m hm => ?_⟩
    · cases hm; exact cleanName_plain (hb'.infix (g n (by simp)))
    · rcases List.mem_append.1 hm with hm | hm
      · exact names (g fk (by simp)) hm
      · exact names (g tk (by simp)) hm
  · split at h
    · rename_i fk tt tk hr
      have g := reMatch_infix hr
      simp only [Option.map_eq_some_iff] at h
      obtain ⟨u, hu, rfl⟩ := h
      refine ⟨fun m hm => (by cases hm), extractTableName_name (hb'.infix (g tt (by simp))) hu, fun m hm => ?_⟩
      rcases List.mem_append.1 hm with hm | hm
      · exact names (g fk (by simp)) hm
      · exact names (g tk (by simp)) hm
    · cases h

theorem default_name {pre a b : Str} (hp : Bare c!".\"'[];\t\n\r" pre) (ha : TableName a) (hb : Bare c!".\"'[];\t\n\r" b) : Bare c!".\"'[];\t\n\r" (pre ++ a ++ c!"_to_" ++ b) :=
  ((hp.append (ha.union ha (by decide))).append (by unfold Bare; decide)).append hb

theorem storeForeignKey_names {db db' : Database} {tn : Str} {k : Option Str × List Str × Str × List Str} (h : ∀ p ∈ db.tables, Nameable p.2)
    (hk : (∀ n, k.1 = some n → Bare c!".\"'[];\t\n\r" n) ∧ Bare c!".\"'[];\t\n\r" k.2.2.1 ∧ ∀ n ∈ k.2.1 ++ k.2.2.2, Bare c!",.\"'[];\t\n\r" n)
    (hs : storeForeignKey db tn k = some db') : ∀ p ∈ db'.tables, Nameable p.2 := by
  unfold storeForeignKey at hs
  split at hs
  · cases hs; exact h
  · rename_i t ht
    have hnt : Nameable t := h _ (Dict.mem_of_get? ht)
    split at hs
    · rename_i t' ht'
      cases hs
      obtain ⟨f, hf, rfl⟩ := addForeignKey_change ht'
      refine updateTable_names h (fun _ _ => ⟨hnt.name, hnt.columns, hnt.primary, hnt.shard, fun q hq => ?_, hnt.relationships⟩)
      rcases Dict.mem_set_of hq with rfl | hq
      · simp only [mkFK] at hf
        split at hf
        · cases hf
        · cases hf
          refine ⟨fun n hn => ?_, hk.2.2⟩
          simp only [List.mem_cons, List.not_mem_nil, or_false] at hn
          rcases hn with rfl | rfl
          · obtain ⟨n, l, tt, l'⟩ := k
            cases n with
            | none => exact default_name (by unfold Bare; decide) hnt.name hk.2.1
            | some n => exact hk.1 n rfl
          · exact hk.2.1
      · exact hnt.foreign q hq
    · cases hs

theorem addConstraints_names {tn : Str} (l : List Str) : ∀ {db : Database}, (∀ p ∈ db.tables, Nameable p.2) → (∀ c ∈ l, Bare c!";\t\n\r" c) →
    ∀ p ∈ (addConstraints tn db l).tables, Nameable p.2 := by
  induction l with
  | nil => intro db h _; exact h
  | cons c l ih =>
    intro db h hl
    unfold addConstraints
    cases hr : readConstraint c with
    | none => exact h
    | some k =>
      dsimp only
      cases hs : storeForeignKey db tn k with
      | none => exact h
      | some db' => exact ih (storeForeignKey_names h (readConstraint_names (hl c (by simp)) hr) hs) (fun x hx => hl x (by simp [hx]))

theorem addForeignKeyStmt_names {db : Database} {stmt : Str} (h : ∀ p ∈ db.tables, Nameable p.2) (hs : StatementText stmt) : ∀ p ∈ (addForeignKeyStmt db stmt).tables, Nameable p.2 := by
  unfold addForeignKeyStmt
  split
  · exact addConstraints_names _ h (fun c hc => by
      obtain ⟨pre, post, e, -⟩ := pieces (by decide) (by decide) _ le_rfl c (List.mem_of_mem_tail hc)
      exact hs.chars.infix ⟨pre, post, by rw [e]; simp⟩)
  · exact h

theorem condition_text {ts : List Tok} {stmt tt c : Str} {gs : List Str} (hs : StatementText stmt)
    (hp : ∀ w ∈ [c!"create database", c!"create table", c!"create or replace table", c!"primary key", c!"foreign"], Lacks w stmt)
    (h : reMatch (ts ++ (group ++ (lit c!" as " ++ group))) stmt = some (gs ++ [tt, c])) : ConditionText c := by
  obtain ⟨s', g1, g2, h1, h2, h3⟩ := reMatch_tail h
  have hl : g2.length = 2 := by rw [reMatch_length h2]; rfl
  match g2, hl with
  | [x, y], _ =>
    have := (List.append_inj' h3 rfl).2
    simp only [List.cons.injEq, and_true] at this
    obtain ⟨rfl, rfl⟩ := this
    obtain ⟨h4, h5⟩ := condition_group (fun hc => hs.chars _ (h1.subset hc) (by simp)) h2
    have h6 : ' ' :: c <:+ stmt := h5.trans h1
    have h7 : c <:+ stmt := (List.suffix_cons _ _).trans h6
    obtain ⟨a, ha⟩ := h6
    refine ⟨hs.chars.infix h7.isInfix, fun h' => hs.single (h'.trans ⟨a, [], by simpa using ha⟩), h4, fun w hw => lacks_infix (hp w hw) h7.isInfix, ?_, ?_⟩
    · rintro rfl
      exact absurd (hs.last ' ' (by rw [← ha]; simp)) (by decide)
    · intro x hx
      refine hs.last x ?_
      rw [← ha, List.getLast?_append, List.getLast?_cons, hx]
      rfl

theorem readRelationship_names {stmt tn tt c : Str} {n : Option Str} (hs : StatementText stmt)
    (hp : ∀ w ∈ [c!"create database", c!"create table", c!"create or replace table", c!"primary key", c!"foreign"], Lacks w stmt)
    (h : readRelationship stmt = some (tn, n, tt, c)) : (∀ m, n = some m → Bare c!".\"'[];\t\n\r" m) ∧ Bare c!".\"'[];\t\n\r" tt ∧ ConditionText c := by
  unfold readRelationship at h
  split at h
  · rename_i a b d e hr
    have g := reMatch_infix hr
    split at h
    · cases h
    · simp only [Option.map_eq_some_iff] at h
      obtain ⟨u, hu, e'⟩ := h
      simp only [Prod.mk.injEq] at e'
      obtain ⟨rfl, rfl, rfl, rfl⟩ := e'
      refine ⟨fun m hm => ?_, extractTableName_name (hs.chars.infix (g d (by simp))) hu, ?_⟩
      · cases hm; exact cleanName_plain (hs.chars.infix (g b (by simp)))
      · exact condition_text (ts := lit c!"alter table " ++ group ++ lit c!" add relationship " ++ group ++ lit c!" with ") (gs := [a, b]) hs hp hr
  · split at h
    · rename_i a d e hr
      have g := reMatch_infix hr
      split at h
      · cases h
      · simp only [Option.map_eq_some_iff] at h
        obtain ⟨u, hu, e'⟩ := h
        simp only [Prod.mk.injEq] at e'
        obtain ⟨rfl, rfl, rfl, rfl⟩ := e'
        exact ⟨fun m hm => (by cases hm), extractTableName_name (hs.chars.infix (g d (by simp))) hu,
          condition_text (ts := lit c!"alter table " ++ group ++ lit c!" add relationship with ") (gs := [a]) hs hp hr⟩
    · cases h

theorem addGenericRelationship_names {db : Database} {stmt : Str} (h : ∀ p ∈ db.tables, Nameable p.2) (hs : StatementText stmt)
    (hp : ∀ w ∈ [c!"create database", c!"create table", c!"create or replace table", c!"primary key", c!"foreign"], Lacks w stmt) :
    ∀ p ∈ (addGenericRelationship db stmt).tables, Nameable p.2 := by
  unfold addGenericRelationship
  split
  · exact h
  · rename_i tn n tt c hr
    obtain ⟨k1, k2, k3⟩ := readRelationship_names hs hp hr
    split
    · exact h
    · rename_i t ht
      have hnt : Nameable t := h _ (Dict.mem_of_get? ht)
      split
      · rename_i t' ht'
        obtain ⟨f, hf, rfl⟩ := addRelationship_change ht'
        refine updateTable_names h (fun _ _ => ⟨hnt.name, hnt.columns, hnt.primary, hnt.shard, hnt.foreign, fun q hq => ?_⟩)
        rcases Dict.mem_set_of hq with rfl | hq
        · simp only [mkRel] at hf
          cases hf
          refine ⟨fun m hm => ?_, k3⟩
          simp only [List.mem_cons, List.not_mem_nil, or_false] at hm
          rcases hm with rfl | rfl
          · cases n with
            | none => exact default_name (by unfold Bare; decide) hnt.name k2
            | some n => exact k1 n rfl
          · exact k2
        · exact hnt.relationships q hq
      · exact h

theorem parseStatement_names {schema : Str} {db db' : Database} {stmt : Str} (h : ∀ p ∈ db.tables, Nameable p.2) (hs : StatementText stmt)
    (hp : parseStatement schema db stmt = .ok db') : ∀ p ∈ db'.tables, Nameable p.2 := by
  unfold parseStatement at hp
  dsimp only at hp
  have lack : ∀ {w : Str}, ¬ hasSub w (lower stmt) = true → Lacks w stmt := fun hn => without_eq.2 (fun hi => hn (hasSub_iff.2 hi))
  split at hp
  · cases hp; exact h
  rename_i n1
  split at hp
  · exact parseCreateTable_names h hs (lack n1) hp
  rename_i n2
  simp only [Bool.or_eq_true, not_or] at n2
  split at hp
  · split at hp
    · cases hp; exact addPrimaryKey_names h hs
    rename_i n3
    split at hp
    · cases hp; exact addForeignKeyStmt_names h hs
    rename_i n4
    split at hp
    · cases hp
      refine addGenericRelationship_names h hs (fun w hw => ?_)
      simp only [List.mem_cons, List.not_mem_nil, or_false] at hw
      rcases hw with rfl | rfl | rfl | rfl | rfl
      · exact lack n1
      · exact lack n2.1
      · exact lack n2.2
      · exact lack n3
      · exact lack n4
    · cases hp; exact h
  · cases hp; exact h

theorem parseStatements_names {schema : Str} (l : List Str) : ∀ {db : Database}, (∀ p ∈ db.tables, Nameable p.2) → (∀ s ∈ l, StatementText s) →
    ∀ p ∈ (parseStatements schema db l).1.tables, Nameable p.2 := by
  induction l with
  | nil => intro db h _; exact h
  | cons x l ih =>
    intro db h hl
    unfold parseStatements
    cases hp : parseStatement schema db x with
    | ok db' => exact ih (parseStatement_names h (hl x (by simp)) hp) (fun s hs => hl s (by simp [hs]))
    | error e => exact h

end Verif
