import Verif.Lemmas.ReadNames
/-
Reading the ALTER TABLE statements `write_tql` produces.
-/

namespace Verif
open Spec

theorem reMatch_dots {s : Str} (h : '\n' ∉ s) : reMatch dots s = some [] := by
  show (starMatch (starAccepts true) (reMatch []) s).map (starGroups false) = some []
  have := starMatch_max (p := starAccepts true) (k := reMatch []) (a := s) (b := []) (r := []) (by
    intro c hc
    simp only [starAccepts, if_true]
    exact decide_eq_true (by rintro rfl; exact h hc)) rfl (by
    intro y hy hne
    exact absurd (List.suffix_nil.1 hy) hne)
  rw [List.append_nil] at this
  rw [this]
  rfl

/-- A literal of the pattern does not occur. -/
theorem reMatch_missing {w : Str} {us : List Tok} : ∀ (ts : List Tok) {s : Str}, ¬ lower w <:+: lower s → reMatch (ts ++ (lit w ++ us)) s = none
  | [], s, h => by
    rw [List.nil_append, reMatch_lit, if_neg]
    exact fun hp => h hp.isInfix
  | .ch c :: ts, [], h => rfl
  | .ch c :: ts, x :: s, h => by
    simp only [List.cons_append, reMatch]
    rw [reMatch_missing ts (s := s) (fun h' => h (h'.trans (List.suffix_cons (lowerC x) (lower s)).isInfix))]
    split <;> rfl
  | .star d cap :: ts, s, h => by
    simp only [List.cons_append, reMatch]
    rw [starMatch_none]
    · rfl
    · intro y hy
      apply reMatch_missing ts
      intro h'
      apply h
      refine h'.trans ?_
      obtain ⟨u, rfl⟩ := hy
      rw [lower_append]
      exact (List.suffix_append _ _).isInfix

theorem tame_newline {s : Str} (h : Tame s) : '\n' ∉ s := fun hc => by
  have := h.blanks _ hc (by decide)
  revert this; decide

theorem phrase_newline {s : Str} (h : Phrase s) : '\n' ∉ s := tame_newline h.tame

/-! ## Foreign keys -/

/-- What follows the name of a foreign key. -/
def fkTail (s : Str) (k : FK) : List (Str × Str) := nameSegs k.fromKeys c!") REFERENCES " ++ ([(s, c!"."), (k.toTable, c!" (")] ++ nameSegs k.toKeys c!")")

theorem toKeys_ne {t : Table} {k : FK} (h : ReadableFK t k) : k.toKeys ≠ [] := by
  intro e
  have := h.lengths
  rw [e, List.length_nil, List.length_eq_zero_iff] at this
  exact h.keys this

theorem fkTail_mem {t : Table} {k : FK} (hs : ReadableName t.schema) (h : ReadableFK t k) : ∀ p ∈ fkTail t.schema k,
    ReadableName p.1 ∧ p.2 ∈ [c!", ", c!") REFERENCES ", c!".", c!" (", c!")"] := by
  intro p hp
  simp only [fkTail, List.mem_append, List.mem_cons, List.not_mem_nil, or_false] at hp
  rcases hp with hp | (rfl | rfl) | hp
  · obtain ⟨h1, h2⟩ := mem_nameSegs hp
    exact ⟨h.names _ (by simp [h1]), by rcases h2 with h2 | h2 <;> simp [h2]⟩
  · exact ⟨hs, by simp⟩
  · exact ⟨h.names _ (by simp), by simp⟩
  · obtain ⟨h1, h2⟩ := mem_nameSegs hp
    exact ⟨h.names _ (by simp [h1]), by rcases h2 with h2 | h2 <;> simp [h2]⟩

theorem fkTail_names {s : Str} {k : FK} : ∀ p ∈ fkTail s k, p.1 ∈ s :: k.toTable :: (k.fromKeys ++ k.toKeys) := by
  intro p hp
  simp only [fkTail, List.mem_append, List.mem_cons, List.not_mem_nil, or_false] at hp
  rcases hp with hp | (rfl | rfl) | hp
  · simp [(mem_nameSegs hp).1]
  · simp
  · simp
  · simp [(mem_nameSegs hp).1]

theorem fkTail_lacks {t : Table} {k : FK} (hs : ReadableName t.schema) (h : ReadableFK t k) {w a : Str} (hb : ∀ n ∈ t.schema :: k.toTable :: (k.fromKeys ++ k.toKeys), Lacks w n) (hq : '"' ∉ w)
    (h0 : hasSub w (lower a) = false)
    (hw : ∀ e ∈ [c!", ", c!") REFERENCES ", c!".", c!" (", c!")"], hasSub w (lower e) = false) : Lacks w (quoteLine a (fkTail t.schema k)) :=
  quoteLine_without hq (lacks_lit h0) (fun p hp => ⟨hb _ (fkTail_names p hp), lacks_lit (hw _ (fkTail_mem hs h p hp).2)⟩)

theorem fkTail_phrase {t : Table} {k : FK} (hs : ReadableName t.schema) (h : ReadableFK t k) {a : Str} (ha : Phrase a) : Phrase (quoteLine a (fkTail t.schema k)) := by
  have lits : ∀ e ∈ [c!", ", c!") REFERENCES ", c!".", c!" (", c!")"], (tame e && !hasSub c!"  " e) = true := by decide
  exact phrase_quote ha (fun p hp => ⟨(fkTail_mem hs h p hp).1.inline, phrase_lit (lits _ (fkTail_mem hs h p hp).2)⟩)

theorem fkTail_eq {t : Table} {k : FK} (h : ReadableFK t k) (a : Str) : quoteLine a (fkTail t.schema k) =
    a ++ (listToString k.fromKeys true ++ (c!") REFERENCES" ++ ([' '] ++ (qpath t.schema k.toTable ++ (c!" (" ++ (listToString k.toKeys true ++ c!")")))))) := by
  unfold fkTail
  rw [quoteLine_append, quoteLine_append, quoteLine_names h.keys, quoteLine_names (toKeys_ne h)]
  simp [quoteLine, qpath, qname]

theorem names_newline {ns : List Str} (h : ∀ n ∈ ns, ReadableName n) : '\n' ∉ listToString ns true ∧ '(' ∉ listToString ns true ∧ ')' ∉ listToString ns true := by
  have key : ∀ c : Char, (isSpace c && c != ' ' || (c!"\"'`[]().,;").contains c) = true → c ∉ c!"\", " → c ∉ listToString ns true := by
    intro c h1 h2 hc
    rcases mem_names hc with hc | ⟨n, hn, hc⟩
    · exact h2 hc
    · exact name_not_mem (h n hn) h1 hc
  exact ⟨key _ (by decide) (by decide), key _ (by decide) (by decide), key _ (by decide) (by decide)⟩

theorem qpath_newline {s n : Str} (hs : ReadableName s) (hn : ReadableName n) : '\n' ∉ qpath s n := by
  simp only [qpath, qname, List.mem_append, List.mem_cons, List.not_mem_nil, or_false, not_or]
  exact ⟨⟨by decide, name_not_mem hs (by decide), by decide⟩, by decide, by decide, name_not_mem hn (by decide), by decide⟩

theorem reMatch_fk {t : Table} {k : FK} (hs : ReadableName t.schema) (h : ReadableFK t k) :
    reMatch patFK (qname k.name ++ quoteLine c!" FOREIGN KEY (" (fkTail t.schema k)) =
      some [qname k.name, listToString k.fromKeys true, qpath t.schema k.toTable, listToString k.toKeys true] := by
  have hfrom := names_newline (ns := k.fromKeys) (fun n hn => h.names n (by simp [hn]))
  have hto := names_newline (ns := k.toKeys) (fun n hn => h.names n (by simp [hn]))
  -- the columns of the other table
  have m4 : reMatch (.star true true :: (lit c!")" ++ [])) (listToString k.toKeys true ++ c!")") = some [listToString k.toKeys true] := by
    have := reMatch_star_last (cap := true) (w := c!")") (a := listToString k.toKeys true) (m := c!")") (s := []) (ts := []) (gs := []) hto.1 rfl rfl (by decide)
    simpa [starGroups] using this
  -- the other table
  have m3 : reMatch (.star true true :: (lit c!" (" ++ (.star true true :: (lit c!")" ++ []))))
      (qpath t.schema k.toTable ++ (c!" (" ++ (listToString k.toKeys true ++ c!")"))) = some [qpath t.schema k.toTable, listToString k.toKeys true] := by
    have := reMatch_star_last (cap := true) (w := c!" (") (a := qpath t.schema k.toTable) (m := c!" (") (s := listToString k.toKeys true ++ c!")")
      (qpath_newline hs (h.names _ (by simp))) rfl m4 (by
        apply not_infix rfl
        have := lacks_line (w := c!" (") (t := c!"(") (l := nameSegs k.toKeys c!")") (by decide) (by decide) (lacks_lit rfl) (fun p hp => ⟨h.names _ (by simp [(mem_nameSegs hp).1]),
          by rcases (mem_nameSegs hp).2 with e | e <;> rw [e] <;> exact lacks_lit rfl⟩)
        rw [quoteLine_names (toKeys_ne h)] at this
        exact this)
    simpa [starGroups] using this
  have m3' := reMatch_blanks (a := [' ']) (c := '"') (t := t.schema ++ '"' :: '.' :: '"' :: (k.toTable ++ ['"']) ++ (c!" (" ++ (listToString k.toKeys true ++ c!")")))
    (ts := (.star true true :: (lit c!" (" ++ (.star true true :: (lit c!")" ++ []))))) (by simp) (by decide) (by
      rw [← m3]; congr 1; simp [qpath, qname])
  -- the columns
  have m2 : reMatch (.star true true :: (lit c!") references" ++ (.star false false :: (.star true true :: (lit c!" (" ++ (.star true true :: (lit c!")" ++ []))))))
      ) (listToString k.fromKeys true ++ (c!") REFERENCES" ++ ([' '] ++ (qpath t.schema k.toTable ++ (c!" (" ++ (listToString k.toKeys true ++ c!")")))))) =
      some [listToString k.fromKeys true, qpath t.schema k.toTable, listToString k.toKeys true] := by
    have := reMatch_star_last (cap := true) (w := c!") references") (a := listToString k.fromKeys true) (m := c!") REFERENCES")
      (s := [' '] ++ (qpath t.schema k.toTable ++ (c!" (" ++ (listToString k.toKeys true ++ c!")")))) hfrom.1 rfl (by
        rw [← m3']; congr 1; simp [qpath, qname]) (by
        apply not_infix rfl
        have := lacks_line (w := c!") references") (t := c!" REFERENCES ") (l := [(t.schema, c!"."), (k.toTable, c!" (")] ++ nameSegs k.toKeys c!")") (by decide) (by decide) (lacks_lit rfl) (fun p hp => by
          simp only [List.mem_append, List.mem_cons, List.not_mem_nil, or_false] at hp
          rcases hp with (rfl | rfl) | hp
          · exact ⟨hs, lacks_lit rfl⟩
          · exact ⟨h.names _ (by simp), lacks_lit rfl⟩
          · exact ⟨h.names _ (by simp [(mem_nameSegs hp).1]), by rcases (mem_nameSegs hp).2 with e | e <;> rw [e] <;> exact lacks_lit rfl⟩)
        rw [quoteLine_append, quoteLine_names (toKeys_ne h)] at this
        have e : quoteLine c!" REFERENCES " [(t.schema, c!"."), (k.toTable, c!" (")] ++ ([] ++ (listToString k.toKeys true ++ c!")")) =
          (c!") REFERENCES" ++ ([' '] ++ (qpath t.schema k.toTable ++ (c!" (" ++ (listToString k.toKeys true ++ c!")"))))).tail := by
          simp [quoteLine, qpath, qname]
        rw [e] at this
        exact this)
    simpa [starGroups] using this
  have m2' := reMatch_blanks (a := [' ']) (c := '(') (t := (listToString k.fromKeys true ++ (c!") REFERENCES" ++ ([' '] ++ (qpath t.schema k.toTable ++ (c!" (" ++ (listToString k.toKeys true ++ c!")")))))))
    (ts := lit c!"(" ++ (.star true true :: (lit c!") references" ++ (.star false false :: (.star true true :: (lit c!" (" ++ (.star true true :: (lit c!")" ++ []))))))))
    (gs := [listToString k.fromKeys true, qpath t.schema k.toTable, listToString k.toKeys true]) (by simp) (by decide) (by
      rw [← m2]; exact reMatch_lit_eq (w := c!"(") (m := c!"(") rfl _ _)
  -- the name
  have := reMatch_star_last (cap := true) (w := c!" foreign key") (a := qname k.name) (m := c!" FOREIGN KEY")
    (s := [' '] ++ '(' :: (listToString k.fromKeys true ++ (c!") REFERENCES" ++ ([' '] ++ (qpath t.schema k.toTable ++ (c!" (" ++ (listToString k.toKeys true ++ c!")")))))))
    (by
      simp only [qname, List.mem_append, List.mem_cons, List.not_mem_nil, or_false, not_or]
      exact ⟨by decide, name_not_mem (h.names _ (by simp)) (by decide), by decide⟩) rfl m2' (by
      apply not_infix rfl
      have := fkTail_lacks hs h (w := c!" foreign key") (a := c!"FOREIGN KEY (") h.noForeignKey (by decide) rfl (by decide)
      rw [fkTail_eq h] at this
      exact this)
  rw [fkTail_eq h]
  simpa [starGroups, patFK, group, blanks] using this

theorem stripChars_id {p : Char → Bool} {s : Str} (h1 : ∀ c, s.head? = some c → p c = false) (h2 : ∀ c, s.getLast? = some c → p c = false) : stripChars p s = s := by
  unfold stripChars
  have e : s.dropWhile p = s := by
    cases s with
    | nil => rfl
    | cons c t => simp [List.dropWhile_cons, h1 c rfl]
  rw [e]
  have e2 : s.reverse.dropWhile p = s.reverse := by
    cases hs : s.reverse with
    | nil => rfl
    | cons c t =>
      have : s.getLast? = some c := by rw [← List.head?_reverse, hs]; rfl
      simp [List.dropWhile_cons, h2 c this]
  rw [e2, List.reverse_reverse]

theorem ends_ok {a t b : Str} (h : a = '"' :: t) (h' : a = b ++ [')']) {p : Char → Bool} (h1 : p '"' = false) (h2 : p ')' = false) :
    (∀ c, a.head? = some c → p c = false) ∧ (∀ c, a.getLast? = some c → p c = false) := by
  constructor
  · intro c hc
    rw [h, List.head?_cons, Option.some.injEq] at hc
    exact hc ▸ h1
  · intro c hc
    rw [h', List.getLast?_append, List.getLast?_singleton, Option.some_or, Option.some.injEq] at hc
    exact hc ▸ h2

theorem readConstraint_fk {t : Table} {k : FK} (hs : ReadableName t.schema) (h : ReadableFK t k) :
    readConstraint (' ' :: (qname k.name ++ quoteLine c!" FOREIGN KEY (" (fkTail t.schema k))) = some (some k.name, k.fromKeys, k.toTable, k.toKeys) := by
  have hx : ∃ x b, qname k.name ++ quoteLine c!" FOREIGN KEY (" (fkTail t.schema k) = '"' :: x ∧
      qname k.name ++ quoteLine c!" FOREIGN KEY (" (fkTail t.schema k) = b ++ [')'] := by
    rw [fkTail_eq h]
    exact ⟨_, qname k.name ++ (c!" FOREIGN KEY (" ++ (listToString k.fromKeys true ++ (c!") REFERENCES" ++ ([' '] ++ (qpath t.schema k.toTable ++ (c!" (" ++ listToString k.toKeys true)))))),
      rfl, by simp⟩
  obtain ⟨x, b, e1, e2⟩ := hx
  have hm := reMatch_fk hs h
  generalize hX : qname k.name ++ quoteLine c!" FOREIGN KEY (" (fkTail t.schema k) = X at *
  unfold readConstraint
  have c1 : strip (' ' :: X) = X := by
    have := strip_pads (a := [' ']) (f := X) (b := []) (by decide) (by simp) (ends_ok e1 e2 (by decide) (by decide))
    simpa using this
  rw [c1, stripChars_id (ends_ok e1 e2 (by decide) (by decide)).1 (ends_ok e1 e2 (by decide) (by decide)).2,
    stripChars_id (ends_ok e1 e2 (by decide) (by decide)).1 (ends_ok e1 e2 (by decide) (by decide)).2, Trim.strip (ends_ok e1 e2 (by decide) (by decide))]
  simp only [hm, extractTableName_qpath hs (h.names k.toTable (by simp)), Option.map_some, cleanName_qname (h.names k.name (by simp)),
    cleanNames_list h.keys (fun n hn => h.names n (by simp [hn])), cleanNames_list (toKeys_ne h) (fun n hn => h.names n (by simp [hn]))]

/-- The statement that adds a foreign key. -/
theorem fkBlock_stmt (t : Table) (k : FK) : (fkBlock t k).stmt =
    c!"ALTER TABLE " ++ (qpath t.schema t.name ++ (c!" ADD" ++ ([' '] ++ (c!"CONSTRAINT" ++ ' ' :: (qname k.name ++ quoteLine c!" FOREIGN KEY (" (fkTail t.schema k)))))) := by
  simp only [Block.stmt, fkBlock, List.map_nil, List.nil_append, joinS]
  rw [quoteLine_append]
  simp [quoteLine, fkTail, qpath, qname]

theorem fkBlock_eq (t : Table) (k : FK) : (fkBlock t k).stmt =
    quoteLine c!"ALTER TABLE " ([(t.schema, c!"."), (t.name, c!" ADD CONSTRAINT "), (k.name, c!" FOREIGN KEY (")] ++ fkTail t.schema k) := by
  simp [Block.stmt, fkBlock, joinS, fkTail]

theorem fkBlock_mem {t : Table} {k : FK} (hs : ReadableName t.schema) (hn : ReadableName t.name) (h : ReadableFK t k) :
    ∀ p ∈ [(t.schema, c!"."), (t.name, c!" ADD CONSTRAINT "), (k.name, c!" FOREIGN KEY (")] ++ fkTail t.schema k,
      ReadableName p.1 ∧ p.2 ∈ [c!" ADD CONSTRAINT ", c!" FOREIGN KEY (", c!", ", c!") REFERENCES ", c!".", c!" (", c!")"] := by
  intro p hp
  simp only [List.mem_append, List.mem_cons, List.not_mem_nil, or_false] at hp
  rcases hp with (rfl | rfl | rfl) | hp
  · exact ⟨hs, by simp⟩
  · exact ⟨hn, by simp⟩
  · exact ⟨h.names _ (by simp), by simp⟩
  · obtain ⟨h1, h2⟩ := fkTail_mem hs h p hp
    exact ⟨h1, List.mem_cons_of_mem _ (List.mem_cons_of_mem _ h2)⟩

theorem fkBlock_lacks {t : Table} {k : FK} (hs : ReadableName t.schema) (hn : ReadableName t.name) (h : ReadableFK t k) {w : Str} (hb : offName w = true) (hq : '"' ∉ w)
    (hw : ∀ e ∈ [c!"ALTER TABLE ", c!" ADD CONSTRAINT ", c!" FOREIGN KEY (", c!", ", c!") REFERENCES ", c!".", c!" (", c!")"], hasSub w (lower e) = false) :
    hasSub w (lower (fkBlock t k).stmt) = false := by
  apply hasSub_without
  rw [fkBlock_eq]
  exact lacks_line hb hq (lacks_lit (hw _ (by simp))) (fun p hp => ⟨(fkBlock_mem hs hn h p hp).1, lacks_lit (hw _ (List.mem_cons_of_mem _ (fkBlock_mem hs hn h p hp).2))⟩)

theorem hasSub_lit {w a b s : Str} (h : s = a ++ b) (hw : hasSub w (lower a) = true) : hasSub w (lower s) = true := by
  rw [hasSub_iff] at hw ⊢
  subst h
  rw [lower_append]
  exact hw.trans (List.prefix_append _ _).isInfix

theorem hasSub_mid {w a b c s : Str} (h : s = a ++ (b ++ c)) (hw : hasSub w (lower b) = true) : hasSub w (lower s) = true := by
  rw [hasSub_iff] at hw ⊢
  subst h
  rw [lower_append, lower_append]
  exact hw.trans ⟨lower a, lower c, by simp⟩

theorem snoc_split {a y z : Str} {c : Char} (e : a ++ [c] = y ++ z) (hz : z ≠ []) : ∃ z', z = z' ++ [c] ∧ a = y ++ z' := by
  rcases List.eq_nil_or_concat z with rfl | ⟨z', x, rfl⟩
  · exact absurd rfl hz
  · rw [List.concat_eq_append, ← List.append_assoc] at e
    have := List.append_inj' e rfl
    exact ⟨z', by rw [List.concat_eq_append, this.2], this.1⟩

theorem prefix_sep {w a b : Str} {c : Char} (hc : c ∉ w) (h : w <+: a ++ c :: b) : w <+: a := by
  obtain ⟨v, e⟩ := h
  rcases List.append_eq_append_iff.1 e with ⟨x, h1, _⟩ | ⟨x, h1, h2⟩
  · exact ⟨x, h1.symm⟩
  · cases x with
    | nil => rw [h1, List.append_nil]; exact List.prefix_refl _
    | cons y x =>
      simp only [List.cons_append, List.cons.injEq] at h2
      exact absurd (by rw [h1, h2.1]; simp) hc

theorem split_constraint {t : Table} {k : FK} (hs : ReadableName t.schema) (h : ReadableFK t k) :
    splitCi c!"constraint" (fkBlock t k).stmt = [c!"ALTER TABLE " ++ (qpath t.schema t.name ++ (c!" ADD" ++ [' '])),
      ' ' :: (qname k.name ++ quoteLine c!" FOREIGN KEY (" (fkTail t.schema k))] := by
  have e : (fkBlock t k).stmt = (c!"ALTER TABLE " ++ (qpath t.schema t.name ++ (c!" ADD" ++ [' ']))) ++ c!"CONSTRAINT" ++
      ' ' :: (qname k.name ++ quoteLine c!" FOREIGN KEY (" (fkTail t.schema k)) := by
    rw [fkBlock_stmt]; simp
  rw [e]
  apply splitCi_once (sep := c!"constraint") (m := c!"CONSTRAINT") (by decide) rfl
  · -- the first part
    intro y z ez hz hp
    have l1 : Lacks c!"constraint" (c!"ALTER TABLE " ++ (qpath t.schema t.name ++ c!" ADD")) := by
      have := quoteLine_without (w := c!"constraint") (t := c!"ALTER TABLE ") (l := [(t.schema, c!"."), (t.name, c!" ADD")]) (by decide) (lacks_lit rfl) (by
        intro p hp
        simp only [List.mem_cons, List.not_mem_nil, or_false] at hp
        rcases hp with rfl | rfl
        · exact ⟨h.noConstraint _ (by simp), lacks_lit rfl⟩
        · exact ⟨h.noConstraint _ (by simp), lacks_lit rfl⟩)
      simpa [quoteLine, qpath, qname] using this
    have e1 : c!"ALTER TABLE " ++ (qpath t.schema t.name ++ (c!" ADD" ++ [' '])) = (c!"ALTER TABLE " ++ (qpath t.schema t.name ++ c!" ADD")) ++ [' '] := by simp
    rw [e1] at ez
    obtain ⟨z', rfl, ez'⟩ := snoc_split ez hz
    apply without_eq.1 l1
    rw [List.append_assoc, List.append_assoc, lower_append, List.singleton_append, lower_cons] at hp
    have := prefix_sep (w := lower c!"constraint") (c := lowerC ' ') (by decide) hp
    rw [ez', lower_append]
    exact this.isInfix.trans (List.suffix_append _ _).isInfix
  · apply not_infix rfl
    have := quoteLine_without (w := c!"constraint") (t := c!" ") (l := (k.name, c!" FOREIGN KEY (") :: fkTail t.schema k) (by decide) (lacks_lit rfl) (by
      have lits : ∀ e ∈ [c!", ", c!") REFERENCES ", c!".", c!" (", c!")"], hasSub c!"constraint" (lower e) = false := by decide
      intro p hp
      rcases List.mem_cons.1 hp with rfl | hp
      · exact ⟨h.noConstraint _ (by simp), lacks_lit rfl⟩
      · refine ⟨?_, lacks_lit (lits _ (fkTail_mem hs h p hp).2)⟩
        simp only [fkTail, List.mem_append, List.mem_cons, List.not_mem_nil, or_false] at hp
        rcases hp with hp | (rfl | rfl) | hp
        · exact h.noConstraint _ (by simp [(mem_nameSegs hp).1])
        · exact h.noConstraint _ (by simp)
        · exact h.noConstraint _ (by simp)
        · exact h.noConstraint _ (by simp [(mem_nameSegs hp).1]))
    simpa [quoteLine, qname] using this

theorem match_add {t : Table} {k : FK} (hs : ReadableName t.schema) (hn : ReadableName t.name) (h : ReadableFK t k) :
    reMatch patAdd (fkBlock t k).stmt = some [qpath t.schema t.name] := by
  rw [show patAdd = lit c!"alter table " ++ (.star true true :: (lit c!" add" ++ dots)) from rfl, fkBlock_stmt, reMatch_lit_eq (w := c!"alter table ") (m := c!"ALTER TABLE ") rfl]
  have hP : Phrase (quoteLine c!" CONSTRAINT " ((k.name, c!" FOREIGN KEY (") :: fkTail t.schema k)) := by
    have lits : ∀ e ∈ [c!", ", c!") REFERENCES ", c!".", c!" (", c!")"], (tame e && !hasSub c!"  " e) = true := by decide
    refine phrase_quote (phrase_lit rfl) (fun p hp => ?_)
    rcases List.mem_cons.1 hp with rfl | hp
    · exact ⟨(h.names _ (by simp)).inline, phrase_lit rfl⟩
    · exact ⟨(fkTail_mem hs h p hp).1.inline, phrase_lit (lits _ (fkTail_mem hs h p hp).2)⟩
  have e : [' '] ++ (c!"CONSTRAINT" ++ ' ' :: (qname k.name ++ quoteLine c!" FOREIGN KEY (" (fkTail t.schema k))) =
      quoteLine c!" CONSTRAINT " ((k.name, c!" FOREIGN KEY (") :: fkTail t.schema k) := by
    simp [quoteLine, qname]
  have := reMatch_star_last (cap := true) (w := c!" add") (a := qpath t.schema t.name) (m := c!" ADD") (s := quoteLine c!" CONSTRAINT " ((k.name, c!" FOREIGN KEY (") :: fkTail t.schema k))
    (ts := dots) (gs := []) (qpath_newline hs hn) rfl (reMatch_dots (phrase_newline hP)) (by
      apply not_infix rfl
      have lits : ∀ e ∈ [c!", ", c!") REFERENCES ", c!".", c!" (", c!")"], hasSub c!" add" (lower e) = false := by decide
      have := quoteLine_without (w := c!" add") (t := c!"ADD CONSTRAINT ") (l := (k.name, c!" FOREIGN KEY (") :: fkTail t.schema k) (by decide) (lacks_lit rfl) (by
        intro p hp
        rcases List.mem_cons.1 hp with rfl | hp
        · exact ⟨h.noAdd _ (by simp), lacks_lit rfl⟩
        · exact ⟨h.noAdd _ (by have := fkTail_names p hp; simp only [List.mem_cons] at this ⊢; tauto), lacks_lit (lits _ (fkTail_mem hs h p hp).2)⟩)
      simpa [quoteLine] using this)
  rw [e, this]
  rfl

/-- Reading a foreign key. -/
theorem parse_fk {t : Table} {k : FK} (hs : ReadableName t.schema) (hn : ReadableName t.name) (h : ReadableFK t k) (schema : Str) (db : Database) {u : Table}
    (hu : db.getTable t.name = some u) (hname : u.name = t.name) :
    parseStatement schema db (fkBlock t k).stmt = .ok (db.updateTable t.name (fun _ => { u with fks := u.fks.set k.name k })) := by
  unfold parseStatement
  simp only [fkBlock_lacks hs hn h (w := c!"create database") (by decide) (by decide) (by decide),
    fkBlock_lacks hs hn h (w := c!"create table") (by decide) (by decide) (by decide),
    fkBlock_lacks hs hn h (w := c!"create or replace table") (by decide) (by decide) (by decide),
    fkBlock_lacks hs hn h (w := c!"primary key") (by decide) (by decide) (by decide),
    hasSub_lit (w := c!"alter table") (fkBlock_stmt t k) rfl,
    hasSub_mid (w := c!"foreign") (s := (fkBlock t k).stmt) (a := c!"ALTER TABLE " ++ (qpath t.schema t.name ++ (c!" ADD" ++ ([' '] ++ (c!"CONSTRAINT" ++ ' ' :: qname k.name)))))
      (b := c!" FOREIGN KEY (") (c := quoteLine [] (fkTail t.schema k)) (by rw [fkBlock_stmt]; simp [quoteLine]) rfl]
  simp only [Bool.false_eq_true, if_false, Bool.or_false, if_true, Except.ok.injEq]
  unfold addForeignKeyStmt
  rw [match_add hs hn h, split_constraint hs h]
  simp only [List.tail_cons, addConstraints, readConstraint_fk hs h, cleanName_qpath hs hn]
  unfold storeForeignKey
  rw [hu]
  simp only [Table.addForeignKey, mkFK, KeyArg.toList, List.nil_append, h.lengths, not_true_eq_false, if_false, bind, Except.bind]
  congr 1
  funext _
  simp only [Table.addForeignKeyObj]
  rw [hname, ← h.source]

/-! ## Relationships -/

theorem infix_head {w p q : Str} {c : Char} (hc : c ∉ p) (h : c :: w <:+: p ++ q) : c :: w <:+: q := by
  induction p with
  | nil => exact h
  | cons x p ih =>
    simp only [List.mem_cons, not_or] at hc
    apply ih hc.2
    rw [List.cons_append, List.infix_cons_iff] at h
    rcases h with h | h
    · rw [List.cons_prefix_cons] at h
      exact absurd h.1 hc.1
    · exact h

/-- A phrase found late is found in the condition. -/
theorem straddle {w w' P y s : Str} (h0 : w = ' ' :: w') (hq : '"' ∉ w) (has : ¬ c!" as" <+: w) (hl : 3 ≤ w.length) (hP : ¬ w <:+: lower P)
    (hy : y <:+ P ++ '"' :: (c!" AS" ++ ' ' :: s)) (hp : w <+: lower y) : y <:+ ' ' :: s := by
  have blank : ∀ {x : Char} {z : Str}, w <+: lower (x :: z) → x = ' ' := by
    intro x z h
    rw [h0, lower_cons, List.cons_prefix_cons] at h
    exact (lowerC_special (by decide) (by decide)).1 h.1.symm
  obtain ⟨u, e⟩ := hy
  rcases List.append_eq_append_iff.1 e with ⟨x, h1, h2⟩ | ⟨x, h1, h2⟩
  · exfalso
    apply hP
    rw [h2, lower_append, lower_cons] at hp
    rw [h1, lower_append]
    exact (prefix_sep (w := w) (c := lowerC '"') (by rwa [show lowerC '"' = '"' from rfl]) hp).isInfix.trans (List.suffix_append _ _).isInfix
  · match x, h2 with
    | [], h2 => subst h2; exact absurd (blank hp) (by decide)
    | [a], h2 =>
      simp only [List.cons_append, List.cons.injEq, List.nil_append] at h2
      obtain ⟨-, h2⟩ := h2
      subst h2
      exfalso
      apply has
      have : c!" as" <+: lower (' ' :: 'A' :: 'S' :: ' ' :: s) := ⟨lower (' ' :: s), rfl⟩
      exact List.prefix_of_prefix_length_le this hp hl
    | [a, b], h2 =>
      simp only [List.cons_append, List.cons.injEq, List.nil_append] at h2
      obtain ⟨-, -, h2⟩ := h2
      subst h2
      exact absurd (blank hp) (by decide)
    | [a, b, c], h2 =>
      simp only [List.cons_append, List.cons.injEq, List.nil_append] at h2
      obtain ⟨-, -, -, h2⟩ := h2
      subst h2
      exact absurd (blank hp) (by decide)
    | a :: b :: c :: d :: x, h2 =>
      simp only [List.cons_append, List.cons.injEq, List.nil_append] at h2
      exact ⟨x, h2.2.2.2.2.symm⟩

theorem relHead_eq (t : Table) (r : Rel) : relHead t r =
    c!"ALTER TABLE " ++ (qpath t.schema t.name ++ (c!" ADD RELATIONSHIP " ++ (qname r.name ++ (c!" WITH " ++ (qpath t.schema r.toTable ++ c!" AS"))))) := by
  simp [relHead, quoteLine, qpath, qname]

theorem relBlock_stmt (t : Table) (r : Rel) : (relBlock t r).stmt =
    c!"ALTER TABLE " ++ (qpath t.schema t.name ++ (c!" ADD RELATIONSHIP " ++ (qname r.name ++ (c!" WITH " ++ (qpath t.schema r.toTable ++ (c!" AS " ++ r.conditions)))))) := by
  simp only [Block.stmt, relBlock, List.map_nil, List.nil_append, joinS, relHead_eq]
  simp

theorem match_rel {t : Table} {r : Rel} (hs : ReadableName t.schema) (hn : ReadableName t.name) (h : ReadableRel t r) :
    reMatch patRel (relBlock t r).stmt = some [qpath t.schema t.name, qname r.name, qpath t.schema r.toTable, r.conditions] := by
  have hr : ReadableName r.name := h.names _ (by simp)
  have htt : ReadableName r.toTable := h.names _ (by simp)
  have hc := h.conditions
  have noAs : ∀ y, y <:+ ' ' :: r.conditions → ¬ lower c!" as " <:+: lower y := by
    intro y hy hi
    apply without_eq.1 hc.noAs
    obtain ⟨u, e⟩ := hy
    rw [← e, lower_append]
    exact hi.trans (List.suffix_append _ _).isInfix
  have m4 : reMatch group r.conditions = some [r.conditions] := reMatch_rest (tame_newline (tame_condition hc))
  have m3 : reMatch (.star true true :: (lit c!" as " ++ group)) (qpath t.schema r.toTable ++ (c!" AS " ++ r.conditions)) = some [qpath t.schema r.toTable, r.conditions] := by
    have := reMatch_star_last (cap := true) (w := c!" as ") (a := qpath t.schema r.toTable) (m := c!" AS ") (s := r.conditions) (qpath_newline hs htt) rfl m4 (by
      intro hi
      have e : lower (c!" AS " ++ r.conditions).tail = c!"as" ++ lower (' ' :: r.conditions) := rfl
      rw [e] at hi
      exact noAs _ (List.suffix_refl _) (infix_head (p := c!"as") (by decide) hi))
    simpa [starGroups] using this
  have m2 : reMatch (.star true true :: (lit c!" with " ++ (.star true true :: (lit c!" as " ++ group))))
      (qname r.name ++ (c!" WITH " ++ (qpath t.schema r.toTable ++ (c!" AS " ++ r.conditions)))) = some [qname r.name, qpath t.schema r.toTable, r.conditions] := by
    have := reMatch_star (cap := true) (w := c!" with ") (a := qname r.name) (m := c!" WITH ") (s := qpath t.schema r.toTable ++ (c!" AS " ++ r.conditions)) (by
      simp only [qname, List.mem_append, List.mem_cons, List.not_mem_nil, or_false, not_or]
      exact ⟨by decide, name_not_mem hr (by decide), by decide⟩) rfl m3 (by
      intro y hy hp
      have hl : Lacks c!" with " (c!"WITH " ++ (qname t.schema ++ (c!".\"" ++ r.toTable))) := by
        have := quoteLine_without (w := c!" with ") (t := c!"WITH ") (l := [(t.schema, c!"."), (r.toTable, [])]) (by decide) (lacks_lit rfl) (by
          intro p hp
          simp only [List.mem_cons, List.not_mem_nil, or_false] at hp
          rcases hp with rfl | rfl
          · exact ⟨h.noWith _ (by simp), lacks_lit rfl⟩
          · exact ⟨h.noWith _ (by simp), lacks_lit rfl⟩)
        exact lacks_infix this ⟨[], ['"'], by simp [quoteLine, qname]⟩
      have hy' := straddle (w := c!" with ") (P := c!"WITH " ++ (qname t.schema ++ (c!".\"" ++ r.toTable))) (s := r.conditions) rfl (by decide) (by decide) (by decide)
        (without_eq.1 hl) (by
        have e : (c!" WITH " ++ (qpath t.schema r.toTable ++ (c!" AS " ++ r.conditions))).tail =
          (c!"WITH " ++ (qname t.schema ++ (c!".\"" ++ r.toTable))) ++ '"' :: (c!" AS" ++ ' ' :: r.conditions) := by simp [qpath, qname]
        rwa [e] at hy) hp
      exact reMatch_missing [.star true true] (noAs _ ((List.drop_suffix _ _).trans hy')))
    simpa [starGroups] using this
  rw [show patRel = lit c!"alter table " ++ (.star true true :: (lit c!" add relationship " ++ (.star true true :: (lit c!" with " ++ (.star true true :: (lit c!" as " ++ group)))))) from rfl,
    relBlock_stmt, reMatch_lit_eq (w := c!"alter table ") (m := c!"ALTER TABLE ") rfl]
  have := reMatch_star (cap := true) (w := c!" add relationship ") (a := qpath t.schema t.name) (m := c!" ADD RELATIONSHIP ")
    (s := qname r.name ++ (c!" WITH " ++ (qpath t.schema r.toTable ++ (c!" AS " ++ r.conditions)))) (qpath_newline hs hn) rfl m2 (by
    intro y hy hp
    have hl : Lacks c!" add relationship " (c!"ADD RELATIONSHIP " ++ (qname r.name ++ (c!" WITH " ++ (qname t.schema ++ (c!".\"" ++ r.toTable))))) := by
      have := quoteLine_without (w := c!" add relationship ") (t := c!"ADD RELATIONSHIP ") (l := [(r.name, c!" WITH "), (t.schema, c!"."), (r.toTable, [])]) (by decide) (lacks_lit rfl) (by
        intro p hp
        simp only [List.mem_cons, List.not_mem_nil, or_false] at hp
        rcases hp with rfl | rfl | rfl
        · exact ⟨h.noAdd _ (by simp), lacks_lit rfl⟩
        · exact ⟨h.noAdd _ (by simp), lacks_lit rfl⟩
        · exact ⟨h.noAdd _ (by simp), lacks_lit rfl⟩)
      exact lacks_infix this ⟨[], ['"'], by simp [quoteLine, qname]⟩
    have hy' := straddle (w := c!" add relationship ") (P := c!"ADD RELATIONSHIP " ++ (qname r.name ++ (c!" WITH " ++ (qname t.schema ++ (c!".\"" ++ r.toTable)))))
      (s := r.conditions) rfl (by decide) (by decide) (by decide) (without_eq.1 hl) (by
      have e : (c!" ADD RELATIONSHIP " ++ (qname r.name ++ (c!" WITH " ++ (qpath t.schema r.toTable ++ (c!" AS " ++ r.conditions))))).tail =
        (c!"ADD RELATIONSHIP " ++ (qname r.name ++ (c!" WITH " ++ (qname t.schema ++ (c!".\"" ++ r.toTable))))) ++ '"' :: (c!" AS" ++ ' ' :: r.conditions) := by simp [qpath, qname]
      rwa [e] at hy) hp
    exact reMatch_missing (.star true true :: lit c!" with " ++ [.star true true]) (noAs _ ((List.drop_suffix _ _).trans hy')))
  simpa [starGroups] using this

theorem relBlock_lacks {t : Table} {r : Rel} (hs : ReadableName t.schema) (hn : ReadableName t.name) (h : ReadableRel t r) {w : Str} (hq : '"' ∉ w)
    (hm : offName w = true ∨ ∀ n ∈ [t.schema, t.name, r.name, r.toTable], Lacks w n) (hw : ∀ e ∈ [c!"ALTER TABLE ", c!" ADD RELATIONSHIP ", c!" WITH ", c!".", c!" AS"], hasSub w (lower e) = false)
    (hc : Lacks w r.conditions) (hg : ¬ w <:+: lower (relHead t r) → ¬ w <:+: lower r.conditions → ¬ w <:+: lower (relHead t r ++ ' ' :: r.conditions)) :
    hasSub w (lower (relBlock t r).stmt) = false := by
  rw [hasSub_false_iff]
  have e : (relBlock t r).stmt = relHead t r ++ ' ' :: r.conditions := by simp [Block.stmt, relBlock, joinS]
  rw [e]
  apply hg _ (without_eq.1 hc)
  apply without_eq.1
  apply quoteLine_without hq (lacks_lit (hw _ (by simp)))
  have name : ∀ n ∈ [t.schema, t.name, r.name, r.toTable], Lacks w n := by
    rcases hm with hm | hm
    · intro n hn'
      apply without_name hm
      simp only [List.mem_cons, List.not_mem_nil, or_false] at hn'
      rcases hn' with rfl | rfl | rfl | rfl
      · exact hs
      · exact hn
      · exact h.names _ (by simp)
      · exact h.names _ (by simp)
    · exact hm
  intro p hp
  simp only [List.mem_cons, List.not_mem_nil, or_false] at hp
  rcases hp with rfl | rfl | rfl | rfl | rfl
  · exact ⟨name _ (by simp), lacks_lit (hw _ (by simp))⟩
  · exact ⟨name _ (by simp), lacks_lit (hw _ (by simp))⟩
  · exact ⟨name _ (by simp), lacks_lit (hw _ (by simp))⟩
  · exact ⟨name _ (by simp), lacks_lit (hw _ (by simp))⟩
  · exact ⟨name _ (by simp), lacks_lit (hw _ (by simp))⟩

/-- A phrase of words does not straddle the end of the head, which ends with AS. -/
theorem relHead_border {t : Table} {r : Rel} {w : Str} (hw : ∀ a b, w = a ++ ' ' :: b → a ≠ [] → a.getLast? ≠ some 's') (h0 : w.head? ≠ some ' ') (hne : w ≠ []) :
    ¬ w <:+: lower (relHead t r) → ¬ w <:+: lower r.conditions → ¬ w <:+: lower (relHead t r ++ ' ' :: r.conditions) := by
  intro h1 h2 h3
  rw [lower_append, lower_cons, show lowerC ' ' = ' ' from rfl] at h3
  have he : ∃ x, lower (relHead t r) = x ++ ['s'] := by
    rw [relHead_eq]
    exact ⟨lower (c!"ALTER TABLE " ++ (qpath t.schema t.name ++ (c!" ADD RELATIONSHIP " ++ (qname r.name ++ (c!" WITH " ++ (qpath t.schema r.toTable ++ c!" A")))))), by
      simp only [lower_append, List.append_assoc]; rfl⟩
  obtain ⟨x, ex⟩ := he
  obtain ⟨u, v, e⟩ := h3
  rw [List.append_assoc] at e
  rcases List.append_eq_append_iff.1 e with ⟨y, e1, e2⟩ | ⟨y, e1, e2⟩
  · -- the phrase starts in the head
    rcases List.append_eq_append_iff.1 e2 with ⟨z, e3, e4⟩ | ⟨z, e3, e4⟩
    · exact h1 ⟨u, z, by rw [e1, e3]; simp⟩
    · cases z with
      | nil => exact h1 ⟨u, [], by rw [e1, e3]; simp⟩
      | cons c z =>
        simp only [List.cons_append, List.cons.injEq] at e4
        rw [← e4.1] at e3
        by_cases hy : y = []
        · subst hy
          rw [e3] at h0
          simp at h0
        · apply hw y z e3 hy
          have := congrArg List.getLast? e1
          rw [ex, List.getLast?_append, List.getLast?_append] at this
          rcases List.eq_nil_or_concat y with rfl | ⟨y', c', rfl⟩
          · exact absurd rfl hy
          · simp only [List.concat_eq_append, List.getLast?_append, List.getLast?_singleton, Option.some_or] at this ⊢
            exact this.symm
  · cases y with
    | nil =>
      cases w with
      | nil => exact hne rfl
      | cons a w =>
        simp only [List.nil_append, List.cons_append, List.cons.injEq] at e2
        rw [← e2.1] at h0
        simp at h0
    | cons c y =>
      simp only [List.cons_append, List.cons.injEq] at e2
      exact h2 ⟨y, v, by rw [e2.2]; simp⟩

/-- Reading a relationship. -/
theorem parse_rel {t : Table} {r : Rel} (hs : ReadableName t.schema) (hn : ReadableName t.name) (h : ReadableRel t r) (schema : Str) (db : Database) {u : Table}
    (hu : db.getTable t.name = some u) (hname : u.name = t.name) :
    parseStatement schema db (relBlock t r).stmt = .ok (db.updateTable t.name (fun _ => { u with rels := u.rels.set r.name r })) := by
  have border : ∀ {w : Str}, (∀ i : Fin w.length, w[i] = ' ' → i.val ≠ 0 ∧ w[i.val - 1]? ≠ some 's') → w ≠ [] →
      (¬ w <:+: lower (relHead t r) → ¬ w <:+: lower r.conditions → ¬ w <:+: lower (relHead t r ++ ' ' :: r.conditions)) := by
    intro w hw hne
    apply relHead_border _ _ hne
    · intro a b e ha hl
      subst e
      have := (hw ⟨a.length, by simp⟩ (by simp)).2
      apply this
      simp only
      rw [List.getElem?_append_left (by have := List.length_pos_iff.2 ha; omega), ← List.getLast?_eq_getElem?, hl]
    · intro h0
      cases w with
      | nil => simp at h0
      | cons a w =>
        simp only [List.head?_cons, Option.some.injEq] at h0
        subst h0
        exact (hw ⟨0, by simp⟩ (by simp)).1 rfl
  have ph := h.conditions.phrases
  unfold parseStatement
  simp only [relBlock_lacks hs hn h (w := c!"create database") (by decide) (.inl (by decide)) (by decide) (ph _ (by simp)) (border (by decide) (by decide)),
    relBlock_lacks hs hn h (w := c!"create table") (by decide) (.inl (by decide)) (by decide) (ph _ (by simp)) (border (by decide) (by decide)),
    relBlock_lacks hs hn h (w := c!"create or replace table") (by decide) (.inl (by decide)) (by decide) (ph _ (by simp)) (border (by decide) (by decide)),
    relBlock_lacks hs hn h (w := c!"primary key") (by decide) (.inl (by decide)) (by decide) (ph _ (by simp)) (border (by decide) (by decide)),
    relBlock_lacks hs hn h (w := c!"foreign") (by decide) (.inr h.noForeign) (by decide) (ph _ (by simp)) (border (by decide) (by decide)),
    hasSub_lit (w := c!"alter table") (relBlock_stmt t r) rfl,
    hasSub_mid (w := c!"relationship") (s := (relBlock t r).stmt) (a := c!"ALTER TABLE " ++ qpath t.schema t.name) (b := c!" ADD RELATIONSHIP ")
      (c := qname r.name ++ (c!" WITH " ++ (qpath t.schema r.toTable ++ (c!" AS " ++ r.conditions)))) (by rw [relBlock_stmt]; simp) rfl]
  simp only [Bool.false_eq_true, if_false, Bool.or_false, if_true, Except.ok.injEq]
  unfold addGenericRelationship readRelationship
  rw [match_rel hs hn h]
  simp only [extractTableName_qpath hs hn, extractTableName_qpath hs (h.names r.toTable (by simp)), Option.map_some, cleanName_qname (h.names r.name (by simp)), hu,
    Table.addRelationship, mkRel, bind, Except.bind]
  congr 1
  funext _
  simp only [Table.addRelationshipObj]
  rw [hname, ← h.source]

end Verif
