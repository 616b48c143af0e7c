import Verif.Lemmas.ReadAlter
import Verif.Lemmas.Parse
import Verif.Spec.Alter
/-
Reading ALTER TABLE statements written by hand.
-/

namespace Verif
open Spec

/-! ## Names -/

theorem Spec.Tidy.trim {n : Str} (h : Tidy n) : Trim n := ⟨h.first, h.last⟩

theorem Spec.Tidy.not_mem {n : Str} (h : Tidy n) {c : Char} (hc : c ∈ '.' :: noise) : c ∉ n := fun hm => h.chars c hm hc

theorem splitC_prefixed {pre x : Str} (h : Prefixed pre) (hx : '.' ∉ x) : (splitC '.' (pre ++ x)).getLastD [] = x := by
  rcases h with rfl | ⟨p, rfl⟩
  · rw [List.nil_append, splitC_plain hx]; rfl
  · rw [List.append_assoc, List.singleton_append, splitC_append, splitC_plain hx]
    simp

/-- Dropping the characters that are not part of names. -/
theorem replaces_filter (s : Str) : replace c!"]" [] (replace c!"[" [] (replace c!"'" [] (replace c!"\"" [] (replace c!"\t" [] s)))) =
    s.filter (fun c => !noise.contains c) := by
  rw [replace_char_nil, replace_char_nil, replace_char_nil, replace_char_nil, replace_char_nil, List.filter_filter, List.filter_filter, List.filter_filter,
    List.filter_filter]
  apply List.filter_congr
  intro c _
  simp only [noise, List.contains_cons, List.contains_nil]
  by_cases h1 : c = '\t' <;> by_cases h2 : c = '"' <;> by_cases h3 : c = '\'' <;> by_cases h4 : c = '[' <;> by_cases h5 : c = ']' <;> simp_all

theorem filter_wrap {q : Quote} {n : Str} (h : Tidy n) (hq : q ≠ .back) : (q.wrap n).filter (fun c => !noise.contains c) = n := by
  have hn : n.filter (fun c => !noise.contains c) = n := by
    rw [List.filter_eq_self]
    intro c hc
    have := h.chars c hc
    simp only [List.mem_cons, not_or] at this
    simpa using this.2
  have a1 : (c!"\"").filter (fun c => !noise.contains c) = [] := by decide
  have a2 : (c!"'").filter (fun c => !noise.contains c) = [] := by decide
  have a3 : (c!"[").filter (fun c => !noise.contains c) = [] := by decide
  have a4 : (c!"]").filter (fun c => !noise.contains c) = [] := by decide
  cases q with
  | plain => exact hn
  | back => exact absurd rfl hq
  | double => simp only [Quote.wrap, List.filter_append, hn, a1, List.nil_append, List.append_nil]
  | single => simp only [Quote.wrap, List.filter_append, hn, a2, List.nil_append, List.append_nil]
  | bracket => simp only [Quote.wrap, List.filter_append, hn, a3, a4, List.nil_append, List.append_nil]

theorem wrap_trim {q : Quote} {n : Str} (h : Tidy n) : Trim (q.wrap n) := by
  cases q with
  | plain => exact h.trim
  | _ =>
    simp only [Quote.wrap]
    constructor
    · intro c hc
      simp only [List.cons_append, List.head?_cons, Option.some.injEq] at hc
      subst hc; decide
    · intro c hc
      simp only [List.getLast?_append, List.getLast?_singleton, Option.some_or, Option.some.injEq] at hc
      subst hc; decide

theorem dot_wrap {q : Quote} {n : Str} (h : Tidy n) : '.' ∉ q.wrap n := by
  have := h.not_mem (c := '.') (by simp)
  cases q <;> simp [Quote.wrap, this]

theorem dot_white {a : Str} (h : White a) : '.' ∉ a := fun hc => absurd (h _ hc) (by decide)

theorem cleanName_written {text n : Str} (h : Written text n) : cleanName text = n := by
  obtain ⟨pre, a, x, b, rfl, hp, ha, hb, hx⟩ := h.shape
  unfold cleanName
  rw [splitC_prefixed hp, ← List.append_assoc a, strip_pads ha hb ⟨hx.first, hx.last⟩, replaces_filter, hx.name]
  simp only [List.mem_append, not_or]
  exact ⟨dot_white ha, hx.noDot, dot_white hb⟩

theorem spelling_wrap {q : Quote} {n : Str} (h : Tidy n) (hq : q ≠ .back) : Spelling (q.wrap n) n :=
  ⟨filter_wrap h hq, dot_wrap h, (wrap_trim h).1, (wrap_trim h).2⟩

theorem written_spelling {x n : Str} (h : Spelling x n) : Written x n := ⟨[], [], x, [], by simp, .inl rfl, by simp [White], by simp [White], h⟩

theorem extractName_plain {c : Char} {s : Str} (h1 : c ≠ '"') (h2 : c ≠ '\'') : extractName (c :: s) = some ((splitC ' ' (c :: s)).headD []) := by
  unfold extractName
  split
  · simp_all
  · simp_all
  · simp_all
  · rfl

theorem splitC_first {c : Char} {a rest : Str} (ha : c ∉ a) (h : rest = [] ∨ ∃ r, rest = c :: r) : (splitC c (a ++ rest)).headD [] = a := by
  rcases h with rfl | ⟨r, rfl⟩
  · rw [List.append_nil, splitC_plain ha]; rfl
  · rw [splitC_cons ha]; rfl

theorem extractTableName_leading {text n : Str} (h : Leading text n) : extractTableName text = some n := by
  obtain ⟨pre, x, rest, rfl, hp, hx, hr, hq⟩ := h.shape
  have hx : '.' ∉ x ++ rest := by
    simp only [List.mem_append, not_or]
    exact ⟨hx, hr⟩
  unfold extractTableName
  rw [splitC_prefixed hp hx]
  rcases hq with ⟨q, y, hq, rfl, hy, hw⟩ | ⟨hw, ⟨c, hc, h1, h2⟩, hb, hrest⟩
  · have e : q :: (y ++ [q]) ++ rest = q :: (y ++ q :: rest) := by simp
    rw [e]
    rcases hq with rfl | rfl
    · simp only [extractName]
      rw [splitC_cons hy, List.headD_cons, Option.map_some, cleanName_written hw]
    · simp only [extractName]
      rw [splitC_cons hy, List.headD_cons, Option.map_some, cleanName_written hw]
  · cases x with
    | nil => cases hc
    | cons d s =>
      simp only [List.head?_cons, Option.some.injEq] at hc
      subst hc
      rw [List.cons_append, extractName_plain h1 h2, ← List.cons_append, splitC_first hb hrest, Option.map_some, cleanName_written hw]

theorem splitC_intercalate {c : Char} : ∀ {ps : List Str}, ps ≠ [] → (∀ p ∈ ps, c ∉ p) → splitC c (List.intercalate [c] ps) = ps
  | [], h, _ => absurd rfl h
  | [p], _, hp => by
    rw [show List.intercalate [c] [p] = p by simp [List.intercalate], splitC_plain (hp p (by simp))]
  | p :: q :: ps, _, hp => by
    rw [show List.intercalate [c] (p :: q :: ps) = p ++ c :: List.intercalate [c] (q :: ps) by simp [List.intercalate, List.intersperse],
      splitC_cons (hp p (by simp)), splitC_intercalate (by simp) (fun x hx => hp x (by simp [hx]))]

theorem cleanNames_columns {text : Str} {ns : List Str} (h : Columns text ns) : cleanNames text = ns := by
  obtain ⟨ps, hne, rfl, hf⟩ := h
  have hc : ∀ p ∈ ps, ',' ∉ p := by
    clear hne
    induction hf with
    | nil => simp
    | cons h _ ih =>
      intro p hp
      rcases List.mem_cons.1 hp with rfl | hp
      · exact h.2
      · exact ih p hp
  unfold cleanNames
  rw [splitC_intercalate hne hc]
  clear hne hc
  induction hf with
  | nil => rfl
  | cons h _ ih => rw [List.map_cons, cleanName_written h.1, ih]

/-! ## Phrases -/

theorem keyword_lower {m w : Str} (h : m.map small = w) (hw : lower w = w) : lower m = lower w := by rw [hw, Props.lower_eq, h]

theorem has_keyword {w kw a b s : Str} (e : s = a ++ (kw ++ b)) (h : w <:+: kw.map small) : hasSub w (lower s) = true := by
  rw [hasSub_iff, Props.lower_eq, e, List.map_append, List.map_append]
  exact h.trans ⟨a.map small, b.map small, by simp⟩

theorem newline_of {a b : Str} (h : '\n' ∉ a ++ b) : '\n' ∉ a ∧ '\n' ∉ b := by simpa using h

/-! ## Foreign keys -/

theorem reMatch_references {r : Str} {k : KeyText} (h : References r k) : ∃ f u g, Columns f k.cols ∧ Leading u k.table ∧ Columns g k.refs ∧
    reMatch (.star false false :: (lit c!"(" ++ (.star true true :: (lit c!") references" ++ (.star false false :: (.star true true :: (lit c!" (" ++
      (.star true true :: (lit c!")" ++ []))))))))) r = some [f, u, g] := by
  obtain ⟨b, f, kw, b', u, g, tail, e, hb, hf, hkw, hb', hu, hub, hg, ht, l1, l2⟩ := h.shape
  refine ⟨f, u, g, hf, hu, hg, ?_⟩
  have hnl := h.oneLine
  rw [e] at hnl
  simp only [List.mem_append, List.mem_cons, not_or] at hnl
  obtain ⟨-, -, nf, nkw, -, nu, -, ng, -, nt⟩ := hnl
  have m4 : reMatch (.star true true :: (lit c!")" ++ [])) (g ++ (')' :: tail)) = some [g] := by
    have := reMatch_star_last (cap := true) (w := c!")") (a := g) (m := c!")") (s := tail) (ts := []) (gs := []) ng rfl rfl (by
      apply not_infix rfl
      intro hi
      have : ')' ∈ tail.map small := hi.subset (by simp)
      obtain ⟨c, hc, hcc⟩ := List.mem_map.1 this
      have : c = ')' := by
        unfold small at hcc
        split at hcc
        · rename_i p hp
          have := List.mem_of_find?_eq_some hp
          have key : ∀ p ∈ letters, p.2 ≠ ')' := by decide
          exact absurd hcc (key _ this)
        · exact hcc
      exact ht (this ▸ hc))
    simpa [starGroups] using this
  have m3 : reMatch (.star true true :: (lit c!" (" ++ (.star true true :: (lit c!")" ++ [])))) (u ++ (c!" (" ++ (g ++ (')' :: tail)))) = some [u, g] := by
    have := reMatch_star_last (cap := true) (w := c!" (") (a := u) (m := c!" (") (s := g ++ (')' :: tail)) nu rfl m4 (not_infix rfl l2)
    simpa [starGroups] using this
  obtain ⟨c, u', hcu⟩ : ∃ c u', u = c :: u' := by
    cases u with
    | nil =>
      have := extractTableName_leading hu
      simp [extractTableName, splitC, extractName] at this
    | cons c u' => exact ⟨c, u', rfl⟩
  have m3' : reMatch (.star false false :: (.star true true :: (lit c!" (" ++ (.star true true :: (lit c!")" ++ []))))) (b' ++ (u ++ (c!" (" ++ (g ++ (')' :: tail))))) =
      some [u, g] := by
    subst hcu
    exact reMatch_blanks (c := c) hb' (by rintro rfl; exact hub rfl) m3
  have m2 := reMatch_star_last (cap := true) (w := c!") references") (a := f) (m := kw) nf (keyword_lower hkw rfl) m3' (not_infix rfl l1)
  have m2' := reMatch_blanks (a := b) (c := '(') (t := f ++ (kw ++ (b' ++ (u ++ (c!" (" ++ (g ++ (')' :: tail))))))) (ts := lit c!"(" ++ (.star true true :: (lit c!") references" ++
    (.star false false :: (.star true true :: (lit c!" (" ++ (.star true true :: (lit c!")" ++ [])))))))) (gs := [f, u, g]) hb (by decide) (by
      have := reMatch_lit_eq (w := c!"(") (m := c!"(") rfl (.star true true :: (lit c!") references" ++
        (.star false false :: (.star true true :: (lit c!" (" ++ (.star true true :: (lit c!")" ++ []))))))) (f ++ (kw ++ (b' ++ (u ++ (c!" (" ++ (g ++ (')' :: tail)))))))
      rw [List.singleton_append] at this
      rw [this, m2]
      rfl)
  rw [e]
  exact m2'

theorem dropWhile_all {p : Char → Bool} {a b : Str} (ha : ∀ c ∈ a, p c = true) (hb : ∀ c, b.head? = some c → p c = false) : (a ++ b).dropWhile p = b := by
  induction a with
  | nil =>
    cases b with
    | nil => rfl
    | cons c t => simp [List.dropWhile_cons, hb c rfl]
  | cons c a ih => simp [List.dropWhile_cons, ha c (by simp), ih (fun x hx => ha x (by simp [hx]))]

theorem stripChars_right {p : Char → Bool} {x s : Str} (hs : ∀ c ∈ s, p c = true) (hne : x ≠ []) (h1 : ∀ c, x.head? = some c → p c = false)
    (h2 : ∀ c, x.getLast? = some c → p c = false) : stripChars p (x ++ s) = x := by
  have e : (x ++ s).dropWhile p = x ++ s := by
    cases x with
    | nil => exact absurd rfl hne
    | cons c t => simp [List.dropWhile_cons, h1 c rfl]
  unfold stripChars
  rw [e, List.reverse_append, dropWhile_all (by simpa using hs) (by intro c hc; rw [List.head?_reverse] at hc; exact h2 c hc), List.reverse_reverse]

theorem readConstraint_core {core : Str} (hne : core ≠ []) {a b commas b' : Str} (ha : White a) (hb : White b) (hc : ∀ c ∈ commas, c = ',')
    (hb' : White b') (h1 : ∀ c, core.head? = some c → isSpace c = false ∧ c ≠ ',' ∧ c ≠ ';') (h2 : ∀ c, core.getLast? = some c → isSpace c = false ∧ c ≠ ',' ∧ c ≠ ';') :
    strip (stripChars (· == ';') (stripChars (· == ',') (strip (a ++ (core ++ (b ++ (commas ++ b')))))))  = core := by
  have ht : Trim core := ⟨fun c h => (h1 c h).1, fun c h => (h2 c h).1⟩
  have hl : ∀ c, (core ++ b).getLast? = some c → (isSpace c = true ∨ (isSpace c = false ∧ c ≠ ',' ∧ c ≠ ';')) := by
    intro c hcl
    rw [List.getLast?_append] at hcl
    cases hbl : b.getLast? with
    | none => rw [hbl] at hcl; exact .inr (h2 c (by simpa using hcl))
    | some d => rw [hbl] at hcl; simp only [Option.some_or, Option.some.injEq] at hcl; exact .inl (hcl ▸ hb d (List.mem_of_getLast? hbl))
  have hh : ∀ c, (core ++ b).head? = some c → isSpace c = false ∧ c ≠ ',' ∧ c ≠ ';' := by
    intro c hch
    cases core with
    | nil => exact absurd rfl hne
    | cons x t => exact h1 c hch
  have last : strip (stripChars (· == ';') (core ++ b)) = core := by
    rw [stripChars_id]
    · have := strip_pads (a := []) (by simp) hb ht
      simpa using this
    · intro c hc'
      simpa using (hh c hc').2.2
    · intro c hc'
      rcases hl c hc' with h | h
      · simp only [beq_eq_false_iff_ne]; rintro rfl; revert h; decide
      · simpa using h.2.2
  by_cases hcm : commas = []
  · subst hcm
    have e : strip (a ++ (core ++ (b ++ ([] ++ b')))) = core := by
      have := strip_pads (a := a) (b := b ++ b') ha (by intro c hc'; rcases List.mem_append.1 hc' with h | h; exact hb c h; exact hb' c h) ht
      simpa using this
    rw [e, stripChars_id (s := core) (fun c hc' => by simpa using (h1 c hc').2.1) (fun c hc' => by simpa using (h2 c hc').2.1),
      stripChars_id (fun c hc' => by simpa using (h1 c hc').2.2) (fun c hc' => by simpa using (h2 c hc').2.2)]
    exact ht.strip
  · have e : strip (a ++ (core ++ (b ++ (commas ++ b')))) = (core ++ b) ++ commas := by
      have := strip_pads (a := a) (f := (core ++ b) ++ commas) (b := b') ha hb' (by
        constructor
        · intro c hc'
          apply (hh c _).1
          rw [List.head?_append_of_ne_nil _ (by simp [hne])] at hc'
          exact hc'
        · intro c hc'
          rw [List.getLast?_append_of_ne_nil _ hcm] at hc'
          rw [hc c (List.mem_of_getLast? hc')]
          decide)
      simpa using this
    rw [e, stripChars_right (by intro c hc'; simpa using hc c hc') (by simp [hne])]
    · exact last
    · intro c hc'
      simpa using (hh c hc').2.1
    · intro c hc'
      rcases hl c hc' with h | h
      · simp only [beq_eq_false_iff_ne]; rintro rfl; revert h; decide
      · simpa using h.2.1

theorem readConstraint_text {core : Str} {k : KeyText} (h : ConstraintText core k) {a b commas b' : Str} (ha : White a) (hb : White b) (hc : ∀ c ∈ commas, c = ',')
    (hb' : White b') (h1 : ∀ c, core.head? = some c → isSpace c = false ∧ c ≠ ',' ∧ c ≠ ';') (h2 : ∀ c, core.getLast? = some c → isSpace c = false ∧ c ≠ ',' ∧ c ≠ ';') :
    readConstraint (a ++ (core ++ (b ++ (commas ++ b')))) = some (k.name, k.cols, k.table, k.refs) := by
  have hne : core ≠ [] := by
    intro e
    cases h with
    | named _ _ hkw =>
      simp only [List.append_eq_nil_iff] at e
      rw [e.2.1] at hkw
      simp at hkw
    | unnamed hkw =>
      simp only [List.append_eq_nil_iff] at e
      rw [e.1] at hkw
      simp at hkw
  unfold readConstraint
  simp only [readConstraint_core hne ha hb hc hb' h1 h2]
  cases h with
  | named hm hnl hkw hr hl hn =>
    obtain ⟨f, u, g, hf, hu, hg, e⟩ := reMatch_references hr
    have := reMatch_star_last (cap := true) (w := c!" foreign key") hnl (keyword_lower hkw rfl) e (not_infix rfl hl)
    rw [show patFK = .star true true :: (lit c!" foreign key" ++ (.star false false :: (lit c!"(" ++ (.star true true :: (lit c!") references" ++ (.star false false ::
      (.star true true :: (lit c!" (" ++ (.star true true :: (lit c!")" ++ [])))))))))) from rfl, this]
    simp [starGroups, extractTableName_leading hu, cleanName_written hm, cleanNames_columns hf, cleanNames_columns hg, hn]
  | unnamed hkw hr hl hn =>
    obtain ⟨f, u, g, hf, hu, hg, e⟩ := reMatch_references hr
    have hnone : ∀ s, Lacks c!" foreign key" s → reMatch patFK s = none := fun s hs => reMatch_star_none (not_infix rfl hs)
    rw [hnone _ hl]
    have := reMatch_lit_eq (w := c!"foreign key") (keyword_lower hkw rfl) (.star false false :: (lit c!"(" ++ (.star true true :: (lit c!") references" ++ (.star false false ::
      (.star true true :: (lit c!" (" ++ (.star true true :: (lit c!")" ++ [])))))))))
    rw [show patFKNoName = lit c!"foreign key" ++ (.star false false :: (lit c!"(" ++ (.star true true :: (lit c!") references" ++ (.star false false ::
      (.star true true :: (lit c!" (" ++ (.star true true :: (lit c!")" ++ []))))))))) from rfl, this, e]
    simp [extractTableName_leading hu, cleanNames_columns hf, cleanNames_columns hg, hn]

/-- A text up to the first occurrence of the separator. -/
theorem splitCi_first {sep a m s : Str} (hne : sep ≠ []) (hm : lower m = lower sep) (ha : ∀ y z, a = y ++ z → z ≠ [] → ¬ lower sep <+: lower (z ++ m ++ s)) :
    splitCi sep (a ++ m ++ s) = a :: splitCi sep s := by
  have hml : m.length = sep.length := by rw [← length_lower m, ← length_lower sep, hm]
  have h0 : splitCi sep (m ++ s) = [] :: splitCi sep s := by
    cases m with
    | nil =>
      simp only [List.length_nil] at hml
      exact absurd (List.length_eq_zero_iff.1 hml.symm) hne
    | cons c m =>
      unfold splitCi
      simp only [List.cons_append, splitCiGo]
      rw [if_pos]
      · rw [show sep.length - 1 = m.length from by rw [← hml]; simp, splitCiGo_skip]
      · rw [startsCi_iff, ← List.cons_append, lower_append, hm]
        exact List.prefix_append _ _
  induction a with
  | nil => simpa using h0
  | cons c a ih =>
    have := ih (fun y z e hz => ha (c :: y) z (by rw [e]; rfl) hz)
    have hn := ha [] (c :: a) rfl (by simp)
    unfold splitCi at this ⊢
    simp only [List.cons_append, splitCiGo]
    rw [if_neg (by rw [startsCi_iff]; simpa using hn), this]
    rfl

theorem split_word {a kw s : Str} {c : Char} (hc : c = ' ' ∨ c = ',') (h : Lacks c!"constraint" a) (hkw : kw.map small = c!"constraint") :
    splitCi c!"constraint" (a ++ c :: (kw ++ s)) = (a ++ [c]) :: splitCi c!"constraint" s := by
  have := splitCi_first (sep := c!"constraint") (a := a ++ [c]) (m := kw) (s := s) (by decide) (keyword_lower hkw rfl) (by
    intro y z ez hz hp
    obtain ⟨z', rfl, ez'⟩ := snoc_split ez hz
    apply without_eq.1 h
    rw [List.append_assoc, List.append_assoc, lower_append, List.singleton_append, lower_cons] at hp
    have := prefix_sep (w := lower c!"constraint") (c := lowerC c) (by rcases hc with rfl | rfl <;> decide) hp
    rw [ez', lower_append]
    exact this.isInfix.trans (List.suffix_append _ _).isInfix)
  simpa using this

theorem readConstraint_constraint {text : Str} {k : KeyText} (h : Constraint text k) : readConstraint text = some (k.name, k.cols, k.table, k.refs) := by
  obtain ⟨a, core, b, commas, b', rfl, ha, hb, hc, hb', ht, h1, h2⟩ := h.shape
  exact readConstraint_text ht ha hb hc hb' h1 h2

theorem constraint_lengths {text : Str} {k : KeyText} (h : Constraint text k) : k.cols.length = k.refs.length := by
  obtain ⟨a, core, b, commas, b', rfl, ha, hb, hc, hb', ht, h1, h2⟩ := h.shape
  cases ht with
  | named _ _ _ hr => exact hr.lengths
  | unnamed _ hr => exact hr.lengths

/-- The texts of the constraints. -/
theorem split_constraints {rest : Str} {ks : List KeyText} (h : Constraints rest ks) : ∃ kw s, rest = kw ++ s ∧ kw.map small = c!"constraint" ∧
    List.Forall₂ Constraint (splitCi c!"constraint" s) ks := by
  induction h with
  | @one kw text k hkw hc =>
    refine ⟨kw, text, rfl, hkw, ?_⟩
    rw [splitCi_absent (not_infix rfl hc.once)]
    exact .cons hc .nil
  | @more kw text c rest k ks hkw hc hb _ ih =>
    obtain ⟨kw', s, rfl, hkw', hf⟩ := ih
    refine ⟨kw, _, rfl, hkw, ?_⟩
    rw [split_word hb (lacks_infix hc.once (List.prefix_append _ _).isInfix) hkw']
    exact .cons hc hf

theorem changed_absent {db : Database} {n : Str} (h : db.getTable n = none) (f : Table → Table) : changed db n f = db := by
  have hn : n ∉ db.tables.keys := (Dict.get?_eq_none_iff _ _).1 h
  have : db.tables.map (fun p => if p.1 = n then (p.1, f p.2) else p) = db.tables := by
    conv_rhs => rw [← List.map_id db.tables]
    apply List.map_congr_left
    intro p hp
    rw [if_neg]
    · rfl
    · rintro rfl
      exact hn (List.mem_map_of_mem hp)
  unfold changed
  rw [this]

theorem changed_present {db : Database} (hw : WellKeyed db) {n : Str} {t : Table} (h : db.getTable n = some t) (f : Table → Table) :
    db.updateTable n (fun _ => f t) = changed db n f := by
  unfold changed Database.updateTable
  congr 1
  apply List.map_congr_left
  intro p hp
  by_cases e : p.1 = n
  · have : p.2 = t := by
      have h' := (Dict.mem_iff_get? hw.tables).1 (show (p.1, p.2) ∈ db.tables from hp)
      rw [e] at h'
      have h2 : db.tables.get? n = some t := h
      rw [h2] at h'
      exact (Option.some.inj h').symm
    rw [if_pos e, if_pos e, this]
  · rw [if_neg e, if_neg e]

theorem table_name {db : Database} (hw : WellKeyed db) {n : Str} {t : Table} (h : db.getTable n = some t) : t.name = n :=
  (hw.tableNames n t (Dict.mem_of_get? h)).symm

theorem store_changed {db : Database} (hw : WellKeyed db) {tn : Str} {k : KeyText} (hk : k.cols.length = k.refs.length) :
    storeForeignKey db tn (k.name, k.cols, k.table, k.refs) = some (changed db tn (fun t => t.addForeignKeyObj (k.key tn))) := by
  unfold storeForeignKey
  cases h : db.getTable tn with
  | none => simp only [changed_absent h]
  | some t =>
    have ht := table_name hw h
    have e : t.addForeignKey (some (.many k.cols)) (some k.table) (some (.many k.refs)) k.name = .ok (t.addForeignKeyObj (k.key tn)) := by
      simp only [Table.addForeignKey, mkFK, KeyArg.toList, List.nil_append, hk, not_true_eq_false, if_false, bind, Except.bind, KeyText.key, ht]
      cases k.name <;> rfl
    simp only [e]
    rw [changed_present hw h (fun t => t.addForeignKeyObj (k.key tn))]

theorem changed_keyed {db : Database} (hw : WellKeyed db) (n : Str) (k : FK) : WellKeyed (changed db n (fun t => t.addForeignKeyObj k)) :=
  hw.updateTable (fun t _ ht => ⟨ht.addForeignKeyObj k, rfl⟩)

theorem changed_changed (db : Database) (n : Str) (f g : Table → Table) : changed (changed db n f) n g = changed db n (fun t => g (f t)) := by
  unfold changed
  simp only [List.map_map]
  congr 1
  apply List.map_congr_left
  intro p _
  simp only [Function.comp]
  split <;> simp_all

theorem addConstraints_all {tn : Str} {cs : List Str} {ks : List KeyText} (h : List.Forall₂ Constraint cs ks) : ∀ {db : Database}, WellKeyed db →
    addConstraints tn db cs = changed db tn (fun t => ks.foldl (fun t k => t.addForeignKeyObj (k.key tn)) t) := by
  induction h with
  | nil =>
    intro db _
    have : db.tables.map (fun p => if p.1 = tn then (p.1, p.2) else p) = db.tables := by
      conv_rhs => rw [← List.map_id db.tables]
      apply List.map_congr_left
      intro p _
      split <;> rfl
    simp only [addConstraints, List.foldl_nil, changed]
    rw [this]
  | cons hc _ ih =>
    intro db hw
    simp only [addConstraints, readConstraint_constraint hc, store_changed hw (constraint_lengths hc)]
    rw [ih (changed_keyed hw _ _), changed_changed]
    rfl

theorem fold_fks (tn : Str) (ks : List KeyText) (t : Table) : ks.foldl (fun t k => t.addForeignKeyObj (k.key tn)) t =
    { t with fks := ks.foldl (fun d k => d.set (k.key tn).name (k.key tn)) t.fks } := by
  induction ks generalizing t with
  | nil => rfl
  | cons k ks ih => rw [List.foldl_cons, ih]; rfl

theorem constraints_word {rest : Str} {ks : List KeyText} (h : Constraints rest ks) : c!"foreign" <:+: rest.map small := by
  have key : ∀ {text : Str} {k : KeyText}, Constraint text k → c!"foreign" <:+: text.map small := by
    intro text k hc
    obtain ⟨a, core, b, commas, b', rfl, -, -, -, -, ht, -, -⟩ := hc.shape
    have : c!"foreign" <:+: core.map small := by
      cases ht with
      | @named m n kw r k _ _ hkw =>
        rw [List.map_append, List.map_append, hkw]
        exact (show c!"foreign" <:+: c!" foreign key" by decide).trans ⟨m.map small, r.map small, by simp⟩
      | @unnamed kw r k hkw =>
        rw [List.map_append, hkw]
        exact (show c!"foreign" <:+: c!"foreign key" by decide).trans ⟨[], r.map small, by simp⟩
    rw [List.map_append, List.map_append]
    exact this.trans ⟨a.map small, (b ++ (commas ++ b')).map small, by simp⟩
  cases h with
  | @one kw text k _ hc =>
    rw [List.map_append]
    exact (key hc).trans (List.suffix_append _ _).isInfix
  | @more kw text c rest k ks _ hc =>
    refine (key hc).trans ⟨kw.map small, rest.map small, by simp⟩

/-- What the patterns find in the statement. -/
theorem adds_fks_parts {stmt tn : Str} {ks : List KeyText} (h : AddsForeignKeys stmt tn ks) :
    ∃ t, reMatch patAdd stmt = some [t] ∧ cleanName t = tn ∧ List.Forall₂ Constraint (splitCi c!"constraint" stmt).tail ks := by
  obtain ⟨kw, t, add, gap, rest, e, hkw, ht, hadd, hg, hgb, hc, l1, l2⟩ := h.shape
  have hnl := h.oneLine
  rw [e] at hnl
  have m1 : reMatch patAdd stmt = some [t] := by
    rw [show patAdd = lit c!"alter table " ++ (.star true true :: (lit c!" add" ++ dots)) from rfl, e, reMatch_lit_eq (w := c!"alter table ") (m := kw) (keyword_lower hkw rfl)]
    have := reMatch_star_last (cap := true) (w := c!" add") (a := t) (m := add) (s := gap ++ rest) (ts := dots) (gs := [])
      (newline_of (newline_of hnl).2).1 (keyword_lower hadd rfl) (reMatch_dots (newline_of (newline_of (newline_of hnl).2).2).2) (not_infix rfl l2)
    exact this
  obtain ⟨kw', s, rfl, hkw', hf⟩ := split_constraints hc
  have hsplit : (splitCi c!"constraint" stmt).tail = splitCi c!"constraint" s := by
    obtain ⟨gap', rfl⟩ : ∃ gap', gap = gap' ++ [' '] := by
      rcases List.eq_nil_or_concat gap with rfl | ⟨g, c, rfl⟩
      · exact absurd rfl hg
      · exact ⟨g, by rw [List.concat_eq_append, hgb c (by simp)]⟩
    have la : Lacks c!"constraint" (kw ++ (t ++ (add ++ gap'))) := by
      have hkw2 : ∃ x, kw = x ++ [' '] ∧ x.map small = c!"alter table" := by
        rcases List.eq_nil_or_concat kw with rfl | ⟨x, c, rfl⟩
        · simp at hkw
        · rw [List.concat_eq_append, List.map_append, show c!"alter table " = c!"alter table" ++ c!" " from rfl] at hkw
          obtain ⟨h1, h2⟩ := List.append_inj' hkw rfl
          simp only [List.map_cons, List.map_nil, List.cons.injEq, and_true] at h2
          exact ⟨x, by rw [List.concat_eq_append, small_blank.1 h2], h1⟩
      obtain ⟨x, rfl, hx⟩ := hkw2
      have hadd2 : ∃ y, add = ' ' :: y ∧ y.map small = c!"add" := by
        cases add with
        | nil => simp at hadd
        | cons c y =>
          simp only [List.map_cons, List.cons.injEq] at hadd
          exact ⟨y, by rw [small_blank.1 hadd.1], hadd.2⟩
      obtain ⟨y, rfl, hy⟩ := hadd2
      have e1 : x ++ [' '] ++ (t ++ (' ' :: y ++ gap')) = x ++ ' ' :: (t ++ ' ' :: (y ++ gap')) := by simp
      rw [e1]
      refine without_sep (by decide) ?_ (without_sep (by decide) l1 ?_)
      · rw [Lacks, hx]; decide
      · cases gap' with
        | nil => rw [List.append_nil, Lacks, hy]; decide
        | cons c g =>
          have hc' : c = ' ' := hgb c (by simp)
          subst hc'
          refine without_sep (by decide) (by rw [Lacks, hy]; decide) ?_
          refine without_mem (c := 'c') (by decide) ?_
          intro hm
          obtain ⟨d, hd, hd'⟩ := List.mem_map.1 hm
          rw [hgb d (by simp [hd])] at hd'
          revert hd'; decide
    have := split_word (c := ' ') (a := kw ++ (t ++ (add ++ gap'))) (kw := kw') (s := s) (.inl rfl) la hkw'
    have e2 : kw ++ (t ++ (add ++ gap')) ++ ' ' :: (kw' ++ s) = stmt := by rw [e]; simp
    rw [e2] at this
    rw [this]
    rfl
  exact ⟨t, m1, cleanName_written ht, hsplit ▸ hf⟩

theorem adds_fks_words {stmt tn : Str} {ks : List KeyText} (h : AddsForeignKeys stmt tn ks) :
    hasSub c!"alter table" (lower stmt) = true ∧ hasSub c!"foreign" (lower stmt) = true := by
  obtain ⟨kw, t, add, gap, rest, e, hkw, ht, hadd, hg, hgb, hc, l1, l2⟩ := h.shape
  exact ⟨has_keyword (a := []) e (by rw [hkw]; decide),
    has_keyword (a := kw ++ (t ++ (add ++ gap))) (kw := rest) (b := []) (by simp [e]) (constraints_word hc)⟩

theorem parse_adds_fks {stmt tn : Str} {ks : List KeyText} (h : AddsForeignKeys stmt tn ks) (schema : Str) {db : Database} (hw : WellKeyed db) :
    parseStatement schema db stmt = .ok (changed db tn (fun t => { t with fks := ks.foldl (fun d k => d.set (k.key tn).name (k.key tn)) t.fks })) := by
  have n1 := hasSub_without (h.notCreate c!"create database" (by simp))
  have n2 := hasSub_without (h.notCreate c!"create table" (by simp))
  have n3 := hasSub_without (h.notCreate c!"create or replace table" (by simp))
  have n4 := hasSub_without h.notPrimary
  obtain ⟨p1, p2⟩ := adds_fks_words h
  obtain ⟨t, m1, ht, hf⟩ := adds_fks_parts h
  unfold parseStatement
  simp only [n1, n2, n3, n4, p1, p2, Bool.false_eq_true, if_false, Bool.or_false, if_true, Except.ok.injEq]
  unfold addForeignKeyStmt
  rw [m1]
  simp only [ht]
  rw [addConstraints_all hf hw]
  congr 1
  funext t
  exact fold_fks tn ks t

/-! ## Primary keys -/

theorem lacks_char {c : Char} {s : Str} (hc : ∀ p ∈ letters, p.2 ≠ c) (h : c ∉ s) : Lacks [c] s := by
  intro hi
  have : c ∈ s.map small := hi.subset (by simp)
  obtain ⟨d, hd, hdc⟩ := List.mem_map.1 this
  have : d = c := by
    unfold small at hdc
    split at hdc
    · rename_i p hp
      exact absurd hdc (hc _ (List.mem_of_find?_eq_some hp))
    · exact hdc
  exact h (this ▸ hd)

theorem reMatch_pk {stmt kw t z pk mid f tail : Str} (e : stmt = kw ++ (t ++ (' ' :: (z ++ (pk ++ (mid ++ ('(' :: (f ++ (')' :: tail)))))))))
    (hkw : kw.map small = c!"alter table ") (hz : ' ' ∉ z) (hpk : pk.map small = c!"primary key") (hf : '(' ∉ f) (ht : '(' ∉ tail) (ht' : ')' ∉ tail)
    (hl : Lacks c!"primary key" (pk ++ (mid ++ ('(' :: (f ++ (')' :: tail))))).tail) (hnl : '\n' ∉ stmt) : reMatch patPK stmt = some [t, f] := by
  rw [e] at hnl
  simp only [List.mem_append, List.mem_cons, not_or] at hnl
  obtain ⟨-, nt, -, nz, npk, nmid, -, nf, -, ntail⟩ := hnl
  have m1 : reMatch (.star true true :: (lit c!")" ++ [])) (f ++ (')' :: tail)) = some [f] := by
    have := reMatch_star_last (cap := true) (w := c!")") (a := f) (m := c!")") (s := tail) (ts := []) (gs := []) nf rfl rfl (not_infix rfl (lacks_char (by decide) ht'))
    simpa [starGroups] using this
  have m2 : reMatch (.star true false :: (lit c!"(" ++ (.star true true :: (lit c!")" ++ [])))) (mid ++ ('(' :: (f ++ (')' :: tail)))) = some [f] := by
    have := reMatch_star_last (cap := false) (w := c!"(") (a := mid) (m := c!"(") (s := f ++ (')' :: tail)) nmid rfl m1 (not_infix rfl (lacks_char (by decide) (by
      simp only [List.singleton_append, List.tail_cons, List.mem_append, List.mem_cons, not_or]
      exact ⟨hf, by decide, ht⟩)))
    simpa [starGroups] using this
  have m3 : reMatch (.star true false :: (lit c!"primary key" ++ (.star true false :: (lit c!"(" ++ (.star true true :: (lit c!")" ++ []))))))
      (z ++ (pk ++ (mid ++ ('(' :: (f ++ (')' :: tail)))))) = some [f] := by
    have := reMatch_star_last (cap := false) (w := c!"primary key") (a := z) (m := pk) nz (keyword_lower hpk rfl) m2 (not_infix rfl hl)
    simpa [starGroups] using this
  have m4 := reMatch_star (cap := true) (w := c!" ") (a := t) (m := c!" ") nt rfl m3 (by
    intro y hy hp
    rw [List.singleton_append, List.tail_cons] at hy
    apply reMatch_star_none
    apply not_infix rfl
    have hb : ∃ y', y = ' ' :: y' := by
      cases y with
      | nil => simp [lower] at hp
      | cons c y' =>
        simp only [lower, List.map_cons, List.map_nil, List.cons_prefix_cons] at hp
        have : small c = ' ' := by
          have e1 : lower [c] = [c].map small := Props.lower_eq _
          simp only [lower, List.map_cons, List.map_nil, List.cons.injEq, and_true] at e1
          rw [← e1, ← hp.1]; decide
        exact ⟨y', by rw [small_blank.1 this]⟩
    obtain ⟨y', rfl⟩ := hb
    refine lacks_infix hl ?_
    simp only [List.length_cons, List.length_nil, List.drop_succ_cons, List.drop_zero]
    -- the blank is not in `z`
    have hsuf : ' ' :: y' <:+ pk ++ (mid ++ ('(' :: (f ++ (')' :: tail)))) := by
      clear m3 m2 m1 hl e nz
      induction z with
      | nil => exact hy
      | cons c z ih =>
        rw [List.cons_append, List.suffix_cons_iff] at hy
        rcases hy with hy | hy
        · simp only [List.cons.injEq] at hy
          exact absurd (by rw [hy.1]; simp) hz
        · exact ih (fun h => hz (by simp [h])) hy
    obtain ⟨u, hu⟩ := hsuf
    rw [← hu]
    cases u with
    | nil => exact List.infix_refl _
    | cons c u => exact ⟨u ++ [' '], [], by simp⟩)
  rw [show patPK = lit c!"alter table " ++ (.star true true :: (lit c!" " ++ (.star true false :: (lit c!"primary key" ++ (.star true false :: (lit c!"(" ++
    (.star true true :: (lit c!")" ++ [])))))))) from rfl, e, reMatch_lit_eq (w := c!"alter table ") (m := kw) (keyword_lower hkw rfl)]
  simpa [starGroups] using m4

theorem sets_pk_parts {stmt tn : Str} {cols : List Str} (h : SetsPrimaryKey stmt tn cols) :
    (hasSub c!"alter table" (lower stmt) = true ∧ hasSub c!"primary key" (lower stmt) = true) ∧
    ∃ t f, reMatch patPK stmt = some [t, f] ∧ extractTableName t = some tn ∧ cleanNames f = cols := by
  obtain ⟨kw, t, z, pk, mid, f, tail, e, hkw, ht, hz, hpk, hf, h1, h2, h3, hl⟩ := h.shape
  refine ⟨⟨has_keyword (a := []) e (by rw [hkw]; decide), ?_⟩, t, f, reMatch_pk e hkw hz hpk h1 h2 h3 hl h.oneLine, extractTableName_leading ht, cleanNames_columns hf⟩
  exact has_keyword (a := kw ++ (t ++ (' ' :: z))) (kw := pk) (by rw [e]; simp; rfl) (by rw [hpk]; decide)

theorem parse_sets_pk {stmt tn : Str} {cols : List Str} (h : SetsPrimaryKey stmt tn cols) (schema : Str) (db : Database) :
    parseStatement schema db stmt = .ok (changed db tn (fun t => { t with pk := cols })) := by
  have n1 := hasSub_without (h.notCreate c!"create database" (by simp))
  have n2 := hasSub_without (h.notCreate c!"create table" (by simp))
  have n3 := hasSub_without (h.notCreate c!"create or replace table" (by simp))
  obtain ⟨⟨p1, p2⟩, t, f, hm, ht, hf⟩ := sets_pk_parts h
  unfold parseStatement
  simp only [n1, n2, n3, p1, p2, Bool.false_eq_true, if_false, Bool.or_false, if_true, Except.ok.injEq]
  unfold addPrimaryKey
  rw [hm]
  simp only [ht, hf]
  rfl

/-! ## Relationships -/

/-- No match for the condition once the table is past. -/
theorem reMatch_late {x a c : Str} (hx : Lacks c!" with " x) (hc : Lacks c!" as " (a ++ c).tail) (y : Str) (hy : y <:+ x ++ (a ++ c))
    (hp : lower c!" with " <+: lower y) : reMatch (.star true true :: (lit c!" as " ++ group)) (y.drop 6) = none := by
  apply reMatch_star_none
  apply not_infix rfl
  refine lacks_infix hc ?_
  obtain ⟨u, hu⟩ := hy
  -- either `y` begins in `x` or not
  rcases List.append_eq_append_iff.1 hu with ⟨v, e1, e2⟩ | ⟨v, e1, e2⟩
  · -- `x = u ++ v`, `y = v ++ (a ++ c)`
    have hv : v.length < 6 := by
      by_contra hlen
      apply hx
      rw [e2, lower_append] at hp
      have : lower c!" with " <+: lower v := by
        refine List.prefix_of_prefix_length_le hp (List.prefix_append _ _) ?_
        rw [length_lower, length_lower]
        simp only [List.length_cons, List.length_nil]
        omega
      rw [e1, List.map_append, ← Props.lower_eq v]
      exact (show c!" with " <+: lower v from this).isInfix.trans (List.suffix_append _ _).isInfix
    rw [e2, List.drop_append, List.drop_eq_nil_of_le (by omega), List.nil_append]
    obtain ⟨k, hk⟩ : ∃ k, 6 - v.length = k + 1 := ⟨5 - v.length, by omega⟩
    rw [hk]
    cases a ++ c with
    | nil => exact List.infix_refl _
    | cons d r => exact (List.drop_suffix k r).isInfix
  · -- `u = x ++ v`, `a ++ c = v ++ y`
    rw [e2]
    cases v with
    | nil =>
      rw [List.nil_append]
      cases y with
      | nil => exact List.infix_refl _
      | cons d r => exact (List.drop_suffix 5 r).isInfix
    | cons d v => exact ((List.drop_suffix _ _).trans (List.suffix_append _ _)).isInfix

/-- Where ADD RELATIONSHIP stands. -/
theorem starts_add {t add rest y : Str} (hadd : add.map small = c!" add relationship ") (ht : Lacks c!" add relationship" t)
    (hl : Lacks c!" add relationship " (add ++ rest).tail) (hy : y <:+ t ++ (add ++ rest)) (hp : lower c!" add relationship " <+: lower y) : y = add ++ rest := by
  obtain ⟨u, hu⟩ := hy
  rcases List.append_eq_append_iff.1 hu with ⟨v, e1, e2⟩ | ⟨v, e1, e2⟩
  · -- `t = u ++ v`, `y = v ++ (add ++ rest)`
    rw [e2, lower_append, lower_append, Props.lower_eq add, hadd] at hp
    by_cases hv : 17 ≤ v.length
    · exfalso
      apply ht
      have h1 : c!" add relationship" <+: lower v := by
        refine List.prefix_of_prefix_length_le ((show c!" add relationship" <+: lower c!" add relationship " by decide).trans hp) (List.prefix_append _ _) ?_
        rw [length_lower]
        exact hv
      rw [e1, List.map_append, ← Props.lower_eq v]
      exact h1.isInfix.trans (List.suffix_append _ _).isInfix
    · by_cases h0 : v = []
      · rw [e2, h0, List.nil_append]
      · exfalso
        have hpos := List.length_pos_iff.2 h0
        obtain ⟨s, hs⟩ := hp
        have hd := congrArg (List.drop v.length) hs
        rw [List.drop_append_of_le_length (by rw [length_lower]; simp only [List.length_cons, List.length_nil]; omega)] at hd
        rw [show v.length = (lower v).length from (length_lower v).symm, List.drop_left] at hd
        have hpre : (lower c!" add relationship ").drop v.length <+: c!" add relationship " := by
          rw [show v.length = (lower v).length from (length_lower v).symm]
          refine List.prefix_of_prefix_length_le ⟨s, hd⟩ (List.prefix_append _ (lower rest)) ?_
          simp [length_lower]
        have key : ∀ i : Fin 17, 0 < i.val → ¬ (lower c!" add relationship ").drop i.val <+: c!" add relationship " := by decide
        exact key ⟨v.length, by omega⟩ hpos hpre
  · -- `u = t ++ v`, `add ++ rest = v ++ y`
    cases v with
    | nil => rw [e2]; rfl
    | cons d v =>
      exfalso
      apply hl
      rw [e2, List.cons_append, List.tail_cons, List.map_append, ← Props.lower_eq y]
      exact hp.isInfix.trans (List.suffix_append _ _).isInfix

theorem readRelationship_text {stmt tn : Str} {r : RelText} (h : AddsRelationship stmt tn r) : readRelationship stmt = some (tn, r.name, r.table, r.cond) := by
  obtain ⟨kw, t, add, rest, e, hkw, ht, hadd, hr, hlt, hl⟩ := h.shape
  have hnl := h.oneLine
  rw [e] at hnl
  have nt := (newline_of (newline_of hnl).2).1
  have nrest := (newline_of (newline_of (newline_of hnl).2).2).2
  cases hr with
  | @named _ m n w u a c hm hw hu ha hn hc l1 l2 =>
    obtain ⟨nm, nr⟩ := newline_of nrest
    obtain ⟨nw, nr⟩ := newline_of nr
    obtain ⟨nu, nr⟩ := newline_of nr
    have m1 := reMatch_star_last (cap := true) (w := c!" as ") (a := u) (m := a) nu (keyword_lower ha rfl) (reMatch_rest (newline_of nr).2) (not_infix rfl l2)
    have m2 := reMatch_star (cap := true) (w := c!" with ") (a := m) (m := w) nm (keyword_lower hw rfl) m1 (by
      intro y hy hp
      have hwne : w ≠ [] := by rintro rfl; simp at hw
      apply reMatch_late l1 l2 y _ hp
      rw [List.tail_append_of_ne_nil hwne] at hy ⊢
      rwa [List.append_assoc])
    have m3 := reMatch_star_last (cap := true) (w := c!" add relationship ") (a := t) (m := add) nt (keyword_lower hadd rfl) m2 (not_infix rfl hl)
    unfold readRelationship
    rw [show patRel = lit c!"alter table " ++ (.star true true :: (lit c!" add relationship " ++ (.star true true :: (lit c!" with " ++ (.star true true ::
      (lit c!" as " ++ group)))))) from rfl, e, reMatch_lit_eq (w := c!"alter table ") (m := kw) (keyword_lower hkw rfl), m3]
    simp [starGroups, extractTableName_leading ht, extractTableName_leading hu, cleanName_written hm, hn, hc]
  | @unnamed _ w u a c hw hu ha hn hc l1 l2 =>
    obtain ⟨nw, nr⟩ := newline_of nrest
    obtain ⟨nu, nr⟩ := newline_of nr
    have m1 := reMatch_star_last (cap := true) (w := c!" as ") (a := u) (m := a) nu (keyword_lower ha rfl) (reMatch_rest (newline_of nr).2) (not_infix rfl l2)
    have none1 : reMatch patRel stmt = none := by
      rw [show patRel = lit c!"alter table " ++ (.star true true :: (lit c!" add relationship " ++ (.star true true :: (lit c!" with " ++ (.star true true ::
        (lit c!" as " ++ group)))))) from rfl, e, reMatch_lit_eq (w := c!"alter table ") (m := kw) (keyword_lower hkw rfl)]
      simp only [reMatch]
      rw [starMatch_none]
      · rfl
      intro y hy
      rw [reMatch_lit]
      split
      · rename_i hp
        have hy' := starts_add hadd hlt hl hy hp
        subst hy'
        have hlen : (c!" add relationship ").length = add.length := by rw [← hadd, List.length_map]
        rw [hlen, List.drop_left]
        simp only [reMatch]
        rw [starMatch_none]
        · rfl
        intro y hy
        rw [reMatch_lit]
        split
        · rename_i hp
          rw [← List.append_assoc] at hy
          exact reMatch_late l1 l2 y hy hp
        · rfl
      · rfl
    have m3 := reMatch_star_last (cap := true) (w := c!" add relationship with ") (a := t) (m := add ++ w) nt (by
      rw [lower_append, Props.lower_eq, Props.lower_eq, hadd, hw]; rfl) m1 (by
        apply not_infix rfl
        rw [List.append_assoc]
        exact fun hi => hl ((show c!" add relationship " <:+: c!" add relationship with " by decide).trans hi))
    unfold readRelationship
    rw [none1, show patRelNoName = lit c!"alter table " ++ (.star true true :: (lit c!" add relationship with " ++ (.star true true ::
      (lit c!" as " ++ group)))) from rfl, e, reMatch_lit_eq (w := c!"alter table ") (m := kw) (keyword_lower hkw rfl), ← List.append_assoc add, m3]
    simp [starGroups, extractTableName_leading ht, extractTableName_leading hu, hn, hc]

theorem parse_adds_rel {stmt tn : Str} {r : RelText} (h : AddsRelationship stmt tn r) (schema : Str) {db : Database} (hw : WellKeyed db) :
    parseStatement schema db stmt = .ok (changed db tn (fun t => { t with rels := t.rels.set (r.rel tn).name (r.rel tn) })) := by
  have hr := readRelationship_text h
  obtain ⟨kw, t, add, rest, e, hkw, ht, hadd, -, -, -⟩ := h.shape
  have n1 := hasSub_without (h.notCreate c!"create database" (by simp))
  have n2 := hasSub_without (h.notCreate c!"create table" (by simp))
  have n3 := hasSub_without (h.notCreate c!"create or replace table" (by simp))
  have n4 := hasSub_without h.notPrimary
  have n5 := hasSub_without h.notForeign
  have p1 : hasSub c!"alter table" (lower stmt) = true := has_keyword (a := []) e (by rw [hkw]; decide)
  have p2 : hasSub c!"relationship" (lower stmt) = true := has_keyword (a := kw ++ t) (kw := add) (by rw [e]; simp; rfl) (by rw [hadd]; decide)
  unfold parseStatement
  simp only [n1, n2, n3, n4, n5, p1, p2, Bool.false_eq_true, if_false, Bool.or_false, if_true, Except.ok.injEq]
  unfold addGenericRelationship
  rw [hr]
  simp only
  cases hg : db.getTable tn with
  | none => simp only [changed_absent hg]
  | some u =>
    have hn := table_name hw hg
    have e : u.addRelationship (some r.table) r.name (some r.cond) = .ok { u with rels := u.rels.set (r.rel tn).name (r.rel tn) } := by
      simp only [Table.addRelationship, mkRel, bind, Except.bind, RelText.rel, hn, Table.addRelationshipObj]
      cases r.name <;> rfl
    simp only [e]
    rw [changed_present hw hg (fun u => { u with rels := u.rels.set (r.rel tn).name (r.rel tn) })]

/-! ## Scripts -/

theorem fold_keyed (tn : Str) (ks : List KeyText) {t : Table} (ht : TableKeyed t) : TableKeyed (ks.foldl (fun t k => t.addForeignKeyObj (k.key tn)) t) := by
  induction ks generalizing t with
  | nil => exact ht
  | cons k ks ih => rw [List.foldl_cons]; exact ih (ht.addForeignKeyObj _)

theorem alteration_keyed {stmt tn : Str} {f : Table → Table} (h : Alteration stmt tn f) {db : Database} (hw : WellKeyed db) : WellKeyed (changed db tn f) := by
  have key : (∀ t, TableKeyed t → TableKeyed (f t) ∧ (f t).name = t.name) → WellKeyed (changed db tn f) :=
    fun hf => hw.updateTable (f := f) (fun t _ ht => hf t ht)
  apply key
  intro t ht
  cases h with
  | keys _ => exact ⟨by beta_reduce; rw [← fold_fks]; exact fold_keyed tn _ ht, rfl⟩
  | primary _ => exact ⟨⟨ht.1, ht.2, ht.3, ht.4, ht.5, ht.6⟩, rfl⟩
  | relationship _ => exact ⟨ht.addRelationshipObj _, rfl⟩

instance (n : Str) : Decidable (Tidy n) :=
  decidable_of_iff ((∀ c ∈ n, c ∉ '.' :: noise) ∧ (∀ c ∈ n.head?, isSpace c = false) ∧ (∀ c ∈ n.getLast?, isSpace c = false))
    ⟨fun ⟨a, b, c⟩ => ⟨a, b, c⟩, fun ⟨a, b, c⟩ => ⟨a, b, c⟩⟩

instance (s : Str) : Decidable (White s) := inferInstanceAs (Decidable (∀ c ∈ s, isSpace c = true))

instance (s : Str) : Decidable (Prefixed s) :=
  decidable_of_iff (s = [] ∨ s.getLast? = some '.') (by
    unfold Prefixed
    rw [List.getLast?_eq_some_iff])

theorem writtenAs {text n : Str} (pre a : Str) (q : Quote) (b : Str)
    (h : text = pre ++ (a ++ (Quote.wrap q n ++ b)) ∧ Tidy n ∧ Prefixed pre ∧ White a ∧ White b ∧ q ≠ .back) : Written text n :=
  ⟨pre, a, q.wrap n, b, h.1, h.2.2.1, h.2.2.2.1, h.2.2.2.2.1, spelling_wrap h.2.1 h.2.2.2.2.2⟩

theorem leadingAs {text n : Str} (pre : Str) (q : Quote) (rest : Str)
    (h : text = pre ++ (Quote.wrap q n ++ rest) ∧ Tidy n ∧ n ≠ [] ∧ Prefixed pre ∧ '.' ∉ rest ∧
      (q = .double ∨ q = .single ∨ ((q = .plain ∨ q = .bracket) ∧ ' ' ∉ n ∧ (rest = [] ∨ rest.head? = some ' ')))) : Leading text n := by
  obtain ⟨e, ht, hn, hp, hr, hq⟩ := h
  refine ⟨pre, q.wrap n, rest, e, hp, dot_wrap ht, hr, ?_⟩
  have self : Written n n := written_spelling (spelling_wrap (q := .plain) ht (by decide))
  rcases hq with rfl | rfl | ⟨hq, hb, hrest⟩
  · exact .inl ⟨'"', n, .inl rfl, rfl, ht.not_mem (by decide), self⟩
  · exact .inl ⟨'\'', n, .inr rfl, rfl, ht.not_mem (by decide), self⟩
  · refine .inr ⟨written_spelling (spelling_wrap ht (by rcases hq with rfl | rfl <;> decide)), ?_, ?_, hrest.imp id (fun hr => ?_)⟩
    · rcases hq with rfl | rfl
      · cases hn' : n with
        | nil => exact absurd hn' hn
        | cons c s =>
          refine ⟨c, rfl, ?_, ?_⟩
          · rintro rfl; exact ht.not_mem (c := '"') (by decide) (by simp [hn'])
          · rintro rfl; exact ht.not_mem (c := '\'') (by decide) (by simp [hn'])
      · exact ⟨'[', rfl, by decide, by decide⟩
    · rcases hq with rfl | rfl <;> simp [Quote.wrap, hb]
    · cases rest with
      | nil => simp at hr
      | cons x r => simp only [List.head?_cons, Option.some.injEq] at hr; exact ⟨r, by rw [hr]⟩

instance (s : Str) : Decidable (NotCreate s) := inferInstanceAs (Decidable (∀ w ∈ [c!"create database", c!"create table", c!"create or replace table"], ¬ w <:+: s.map small))

end Verif
