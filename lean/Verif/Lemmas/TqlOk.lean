import Verif.Lemmas.TqlLines
/-
The lines `write_tql` produces can be read.
-/

namespace Verif
open Spec

/-- A tame text without two blanks in a row. -/
structure Phrase (s : Str) : Prop where
  tame : Tame s
  single : ¬ c!"  " <:+: s

theorem phrase_lit {s : Str} (h : (tame s && !hasSub c!"  " s) = true) : Phrase s := by
  simp only [Bool.and_eq_true, Bool.not_eq_true', hasSub_false_iff] at h
  exact ⟨tame_lit h.1, h.2⟩

theorem phrase_sep {a b : Str} {c : Char} (h1 : c ≠ ';') (h2 : isSpace c = false) (h3 : c ∉ c!"-/*") (ha : Phrase a) (hb : Phrase b) :
    Phrase (a ++ c :: b) := by
  refine ⟨tame_sep h1 (by simp [h2]) h3 ha.tame hb.tame, fun h => ?_⟩
  rcases infix_sep (fun hc => by
    simp only [List.mem_cons, List.not_mem_nil, or_false, or_self] at hc
    subst hc
    revert h2; decide) h with h | h
  · exact ha.single h
  · exact hb.single h

theorem phrase_name {n : Str} (h : InlineName n) : Phrase n := ⟨tame_name h, h.single⟩

theorem phrase_quote {t : Str} {l : List (Str × Str)} (h0 : Phrase t) (h : ∀ p ∈ l, InlineName p.1 ∧ Phrase p.2) : Phrase (quoteLine t l) :=
  ⟨tame_quoteLine h0.tame (fun p hp => ⟨(h p hp).1, (h p hp).2.tame⟩),
    quoteLine_free (by decide) h0.single (fun p hp => ⟨(phrase_name (h p hp).1).single, (h p hp).2.single⟩)⟩

theorem lineOk_phrase {s : Str} (h : Phrase s) (hh : ∃ c t, s = c :: t ∧ isSpace c = false ∧ c ≠ 'G') (hl : ∃ t c, s = t ++ [c] ∧ isSpace c = false) : LineOk s := by
  obtain ⟨c, t, e, hc, hg⟩ := hh
  obtain ⟨t', c', e', hc'⟩ := hl
  refine ⟨neat_of (by rw [e]; simp) h.tame.blanks ⟨?_, ?_⟩ h.single, h.tame, ?_⟩
  · intro x hx
    rw [e, List.head?_cons, Option.some.injEq] at hx
    exact hx ▸ hc
  · intro x hx
    rw [e', List.getLast?_append] at hx
    simp only [List.getLast?_singleton, Option.some_or, Option.some.injEq] at hx
    exact hx ▸ hc'
  · rw [e, List.head?_cons]
    simpa using hg

theorem phrase_names {ns : List Str} {e : Str} (h : ∀ n ∈ ns, InlineName n) (he : Phrase e) : ∀ p ∈ nameSegs ns e, InlineName p.1 ∧ Phrase p.2 := by
  intro p hp
  obtain ⟨h1, h2⟩ := mem_nameSegs hp
  refine ⟨h _ h1, ?_⟩
  rcases h2 with h2 | h2 <;> rw [h2]
  · exact phrase_lit rfl
  · exact he

theorem digits_tame {ds : Str} (h : ∀ c ∈ ds, digit c = true) : Phrase ds := by
  have hm : ∀ x : Char, digit x = false → x ∉ ds := fun x hx hc => by have := h x hc; rw [hx] at this; simp at this
  refine ⟨⟨fun c hc hs => ?_, hm _ (by decide), fun hi => hm '-' (by decide) (hi.subset (by simp)), fun hi => hm '*' (by decide) (hi.subset (by simp))⟩,
    fun hi => hm ' ' (by decide) (hi.subset (by simp))⟩
  have := digit_not_space (h c hc)
  rw [hs] at this
  simp at this

theorem digit_of_mem {c : Char} (h : c ∈ c!"0123456789") : digit c = true := by
  have : ∀ c ∈ c!"0123456789", digit c = true := by decide
  exact this c h

theorem last_ok {s : Str} (h : (s.getLast?.map isSpace) = some false) : ∃ t c, s = t ++ [c] ∧ isSpace c = false := by
  rcases List.eq_nil_or_concat s with rfl | ⟨t, c, rfl⟩
  · simp at h
  · exact ⟨t, c, by simp, by simpa using h⟩

theorem phrase_type {ty : Str} (h : ReadableType ty) : Phrase (' ' :: ty) ∧ (∃ t c, ty = t ++ [c] ∧ isSpace c = false) := by
  rcases h with h | ⟨ds, hd, rfl⟩
  · simp only [List.mem_cons, List.not_mem_nil, or_false] at h
    rcases h with rfl | rfl | rfl | rfl | rfl | rfl | rfl | rfl | rfl | rfl | rfl <;>
      exact ⟨phrase_lit rfl, last_ok rfl⟩
  · refine ⟨?_, _, ')', rfl, by decide⟩
    rw [show ' ' :: (c!"VARCHAR(" ++ ds ++ c!")") = c!" VARCHAR" ++ '(' :: (ds ++ ')' :: []) from by simp]
    exact phrase_sep (by decide) (by decide) (by decide) (phrase_lit rfl)
      (phrase_sep (by decide) (by decide) (by decide) (digits_tame (fun c hc => digit_of_mem (hd c hc))) (phrase_lit rfl))

theorem phrase_col {c : Column} (h : InlineName c.name ∧ ReadableType c.type) : Phrase (colPrint c) ∧ ∃ t x, colPrint c = t ++ [x] ∧ isSpace x = false := by
  obtain ⟨h1, t, x, e, hx⟩ := phrase_type h.2
  refine ⟨?_, '"' :: (c.name ++ '"' :: (' ' :: t)), x, ?_, hx⟩
  · have := phrase_quote (t := []) (l := [(c.name, ' ' :: c.type)]) (phrase_lit rfl) (by simpa using ⟨h.1, h1⟩)
    rwa [quoteLine_cons, quoteLine_nil] at this
  · unfold colPrint; rw [e]; simp

theorem intToStr_phrase (n : Int) : Phrase (intToStr n) ∧ ∀ c ∈ intToStr n, c = '-' ∨ digit c = true := by
  unfold intToStr
  split
  · exact ⟨digits_tame (natToStr_digits _), fun c hc => .inr (natToStr_digits _ c hc)⟩
  · rename_i n
    have hp := digits_tame (natToStr_digits (n + 1))
    have hm : ∀ x : Char, digit x = false → x ∉ natToStr (n + 1) := fun x hx hc => by have := natToStr_digits _ x hc; rw [hx] at this; simp at this
    have hmem : ∀ x : Char, x ≠ '-' → digit x = false → x ∉ c!"-" ++ natToStr (n + 1) := by
      intro x hx hd hc
      rcases List.mem_cons.1 hc with rfl | hc
      · exact hx rfl
      · exact hm x hd hc
    refine ⟨⟨⟨?_, hmem _ (by decide) (by decide), ?_, fun hi => hmem '/' (by decide) (by decide) (hi.subset (by simp))⟩,
      fun hi => hmem ' ' (by decide) (by decide) (hi.subset (by simp))⟩, ?_⟩
    · intro c hc hs
      rcases List.mem_cons.1 hc with rfl | hc
      · revert hs; decide
      · exact hp.tame.blanks c hc hs
    · rintro ⟨a, b, e⟩
      cases a with
      | nil =>
        simp only [List.nil_append, List.cons_append, List.cons.injEq, true_and] at e
        exact hm '-' (by decide) (e ▸ List.mem_cons_self)
      | cons x a =>
        simp only [List.cons_append, List.cons.injEq, List.nil_append] at e
        exact hm '-' (by decide) (e.2 ▸ by simp)
    · intro c hc
      rcases List.mem_cons.1 hc with rfl | hc
      · exact .inl rfl
      · exact .inr (natToStr_digits _ c hc)

theorem countPrint_eq {k : ShardKey} (h : ReadableShard k) : ∃ n : Int, countPrint k.number = intToStr n ∧ normalCount k.number = .int n := by
  cases e : k.number with
  | int n => exact ⟨n, rfl, rfl⟩
  | flt q => exact ⟨_, rfl, rfl⟩
  | text s => exact absurd e (h.number s)

/-- The last line of a CREATE TABLE with a shard key. -/
theorem createLast_some {k : ShardKey} (h : ReadableShard k) : Phrase (createLast (some k)) := by
  obtain ⟨n, e, _⟩ := countPrint_eq h
  simp only [createLast]
  rw [e]
  apply phrase_quote _ (phrase_names (fun n hn => (h.names n hn).inline) (phrase_lit rfl))
  rw [show c!") PARTITION BY HASH(" ++ intToStr n ++ c!") KEY(" = c!") PARTITION BY HASH" ++ '(' :: (intToStr n ++ ')' :: c!" KEY(") from by simp]
  exact phrase_sep (by decide) (by decide) (by decide) (phrase_lit rfl)
    (phrase_sep (by decide) (by decide) (by decide) (intToStr_phrase n).1 (phrase_lit rfl))

theorem lineOk_last {t : Str} {l : List (Str × Str)} {ns : List Str} (hne : ns ≠ []) (h : Phrase (quoteLine t (l ++ nameSegs ns c!")")))
    (hh : ∃ c t', t = c :: t' ∧ isSpace c = false ∧ c ≠ 'G') : LineOk (quoteLine t (l ++ nameSegs ns c!")")) := by
  apply lineOk_phrase h
  · obtain ⟨c, t', rfl, h'⟩ := hh
    exact ⟨c, _, rfl, h'⟩
  · rw [quoteLine_append, quoteLine_names hne]
    exact ⟨quoteLine t l ++ listToString ns true, ')', by simp, by decide⟩

theorem createLast_ok {t : Table} (h : ReadableTable t) : LineOk (createLast t.shard) := by
  cases e : t.shard with
  | none => exact lineOk_phrase (phrase_lit rfl) ⟨')', [], rfl, by decide⟩ ⟨[], ')', rfl, by decide⟩
  | some k =>
    exact lineOk_last (l := []) (h.shard k e).keys (createLast_some (h.shard k e)) ⟨_, _, rfl, by decide⟩

theorem pk_ok {pk : List Str} (hne : pk ≠ []) (h : ∀ n ∈ pk, InlineName n) : Phrase (pkPrint pk) ∧ ∃ t, pkPrint pk = t ++ [')'] := by
  refine ⟨phrase_quote (phrase_lit rfl) (phrase_names h (phrase_lit rfl)), ?_⟩
  unfold pkPrint
  rw [quoteLine_names hne]
  exact ⟨c!"CONSTRAINT PRIMARY KEY (" ++ listToString pk true, by simp⟩

theorem colLines_ok : ∀ {b : Bool} {cs : List Column}, (∀ c ∈ cs, InlineName c.name ∧ ReadableType c.type) →
    ∀ p ∈ colLines b cs, (∀ c ∈ p.1, c = ' ') ∧ LineOk p.2
  | b, [], _, p, hp => by cases b <;> simp [colLines] at hp
  | true, c :: cs, h, p, hp => by
    rcases List.mem_cons.1 hp with rfl | hp
    · obtain ⟨h1, h2⟩ := phrase_col (h c (by simp))
      exact ⟨by simp, lineOk_phrase h1 ⟨'"', _, rfl, by decide⟩ h2⟩
    · exact colLines_ok (fun x hx => h x (by simp [hx])) p hp
  | false, c :: cs, h, p, hp => by
    rcases List.mem_cons.1 hp with rfl | hp
    · obtain ⟨h1, t, x, e, hx⟩ := phrase_col (h c (by simp))
      refine ⟨by simp, lineOk_phrase (phrase_sep (a := []) (by decide) (by decide) (by decide) (phrase_lit rfl) h1)
        ⟨',', _, rfl, by decide⟩ ⟨',' :: t, x, by rw [e]; rfl, hx⟩⟩
    · exact colLines_ok (fun x hx => h x (by simp [hx])) p hp

theorem createBlock_ok {t : Table} (hs : ReadableName t.schema) (h : ReadableTable t) : (createBlock t).Ok := by
  have key : ∀ p ∈ (createBlock t).init, (∀ c ∈ p.1, c = ' ') ∧ LineOk p.2 := by
    intro p hp
    simp only [createBlock, List.mem_cons, List.mem_append] at hp
    rcases hp with rfl | hp | hp
    · refine ⟨by simp, lineOk_phrase (phrase_quote (phrase_lit rfl) ?_) ⟨'C', _, rfl, by decide⟩ ?_⟩
      · intro p hp
        simp only [List.mem_cons, List.not_mem_nil, or_false] at hp
        rcases hp with rfl | rfl
        · exact ⟨hs.inline, phrase_lit rfl⟩
        · exact ⟨h.name.inline, phrase_lit rfl⟩
      · exact ⟨c!"CREATE TABLE \"" ++ t.schema ++ c!"\".\"" ++ t.name ++ c!"\" ", '(', by simp [createHead, quoteLine], by decide⟩
    · refine colLines_ok ?_ p hp
      intro c hc
      simp only [Table.iter, Dict.vals, List.mem_map] at hc
      obtain ⟨q, hq, rfl⟩ := hc
      exact ⟨(h.cols q hq).1.inline, (h.cols q hq).2⟩
    · unfold pkLines at hp
      split at hp
      · simp at hp
      · rename_i hne
        simp only [List.mem_singleton] at hp
        subst hp
        obtain ⟨h1, t', e⟩ := pk_ok hne (fun n hn => (h.pk n hn).inline)
        exact ⟨by simp, lineOk_phrase (phrase_sep (a := []) (by decide) (by decide) (by decide) (phrase_lit rfl) h1)
          ⟨',', _, rfl, by decide⟩ ⟨',' :: t', ')', by rw [e]; rfl, by decide⟩⟩
  exact ⟨fun p hp => (key p hp).1, fun p hp => (key p hp).2, createLast_ok h⟩

theorem nameBlock_ok {t n : Str} {l : List (Str × Str)} (h0 : Phrase t) (hh : ∃ c t', t = c :: t' ∧ isSpace c = false ∧ c ≠ 'G')
    (hl : ∀ p ∈ l, InlineName p.1 ∧ Phrase p.2) (hn : InlineName n) (b : Bool) : Block.Ok ⟨b, [], quoteLine t (l ++ [(n, [])])⟩ := by
  refine ⟨by simp, by simp, lineOk_phrase (phrase_quote h0 ?_) ?_ ⟨quoteLine t l ++ '"' :: n, '"', by rw [quoteLine_append]; simp [quoteLine], by decide⟩⟩
  · intro p hp
    rcases List.mem_append.1 hp with hp | hp
    · exact hl p hp
    · simp only [List.mem_singleton] at hp
      subst hp
      exact ⟨hn, phrase_lit rfl⟩
  · obtain ⟨c, t', rfl, h⟩ := hh
    exact ⟨c, _, rfl, h⟩

theorem fkBlock_ok {t : Table} {k : FK} (hs : ReadableName t.schema) (hn : ReadableName t.name) (h : ReadableFK t k) : (fkBlock t k).Ok := by
  have hk : k.toKeys ≠ [] := by
    intro e
    have := h.lengths
    rw [e, List.length_nil, List.length_eq_zero_iff] at this
    exact h.keys this
  refine ⟨by simp [fkBlock], by simp [fkBlock], ?_⟩
  simp only [fkBlock]
  rw [← List.append_assoc, ← List.append_assoc]
  apply lineOk_last hk _ ⟨'A', _, rfl, by decide⟩
  apply phrase_quote (phrase_lit rfl)
  intro p hp
  simp only [List.mem_append, List.mem_cons, List.not_mem_nil, or_false] at hp
  rcases hp with (((rfl | rfl | rfl) | hp) | (rfl | rfl)) | hp
  · exact ⟨hs.inline, phrase_lit rfl⟩
  · exact ⟨hn.inline, phrase_lit rfl⟩
  · exact ⟨(h.names _ (by simp)).inline, phrase_lit rfl⟩
  · exact phrase_names (fun n hn => (h.names n (by simp [hn])).inline) (phrase_lit rfl) p hp
  · exact ⟨hs.inline, phrase_lit rfl⟩
  · exact ⟨(h.names _ (by simp)).inline, phrase_lit rfl⟩
  · exact phrase_names (fun n hn => (h.names n (by simp [hn])).inline) (phrase_lit rfl) p hp

theorem relHead_ok {t : Table} {r : Rel} (hs : ReadableName t.schema) (hn : ReadableName t.name) (h : ReadableRel t r) : LineOk (relHead t r) := by
  apply lineOk_phrase
  · apply phrase_quote (phrase_lit rfl)
    intro p hp
    simp only [List.mem_cons, List.not_mem_nil, or_false] at hp
    rcases hp with rfl | rfl | rfl | rfl | rfl
    · exact ⟨hs.inline, phrase_lit rfl⟩
    · exact ⟨hn.inline, phrase_lit rfl⟩
    · exact ⟨(h.names _ (by simp)).inline, phrase_lit rfl⟩
    · exact ⟨hs.inline, phrase_lit rfl⟩
    · exact ⟨(h.names _ (by simp)).inline, phrase_lit rfl⟩
  · exact ⟨'A', _, rfl, by decide⟩
  · refine ⟨quoteLine c!"ALTER TABLE " [(t.schema, c!"."), (t.name, c!" ADD RELATIONSHIP "), (r.name, c!" WITH "), (t.schema, c!"."), (r.toTable, c!" A")], 'S',
      by simp [relHead, quoteLine], by decide⟩

theorem tame_condition {s : Str} (h : ReadableCondition s) : Tame s := ⟨h.blanks, h.noSemicolon, h.noLineComment, h.noBlockComment⟩

theorem relBlock_ok {t : Table} {r : Rel} (hs : ReadableName t.schema) (hn : ReadableName t.name) (h : ReadableRel t r) : (relBlock t r).Ok := by
  have h1 := relHead_ok hs hn h
  refine ⟨by simp [relBlock], by simp [relBlock], neat_append h1.neat ⟨h.conditions.nonempty, h.conditions.neat⟩,
    tame_sep (by decide) (by decide) (by decide) h1.tame (tame_condition h.conditions), ?_⟩
  simp [relBlock, relHead, quoteLine]

theorem dbBlocks_ok {db : Database} (h : ReadableDb db) (createDb : Bool) {schemas : List Str} (hs : ∀ s ∈ schemas, ReadableName s) :
    ∀ b ∈ dbBlocks createDb schemas db, b.Ok := by
  have mem : ∀ {t}, t ∈ db.iter → ReadableTable t ∧ ReadableName t.schema := by
    intro t ht
    simp only [Database.iter, Dict.vals, List.mem_map] at ht
    obtain ⟨p, hp, rfl⟩ := ht
    exact ⟨h.tables p hp, h.tableSchemas p hp⟩
  intro b hb
  simp only [dbBlocks, List.mem_append, List.mem_flatMap, List.mem_singleton] at hb
  rcases hb with hb | rfl | hb | ⟨t, ht, hb⟩ | ⟨t, ht, hb⟩ | ⟨t, ht, hb⟩
  · split at hb
    · simp only [List.mem_singleton] at hb
      subst hb
      exact nameBlock_ok (l := []) (phrase_lit rfl) ⟨_, _, rfl, by decide⟩ (by simp) h.name.inline _
    · simp at hb
  · exact nameBlock_ok (l := []) (phrase_lit rfl) ⟨_, _, rfl, by decide⟩ (by simp) h.name.inline _
  · obtain ⟨n, hn, rfl⟩ := List.mem_map.1 hb
    exact nameBlock_ok (l := []) (phrase_lit rfl) ⟨_, _, rfl, by decide⟩ (by simp) (hs n hn).inline _
  · simp only [List.mem_cons, List.not_mem_nil, or_false] at hb
    rcases hb with rfl | rfl
    · exact nameBlock_ok (l := [(t.schema, c!".")]) (phrase_lit rfl) ⟨_, _, rfl, by decide⟩
        (by simp only [List.mem_singleton]; rintro p rfl; exact ⟨(mem ht).2.inline, phrase_lit rfl⟩) (mem ht).1.name.inline _
    · exact createBlock_ok (mem ht).2 (mem ht).1
  · obtain ⟨k, hk, rfl⟩ := List.mem_map.1 hb
    simp only [Dict.vals, List.mem_map] at hk
    obtain ⟨p, hp, rfl⟩ := hk
    exact fkBlock_ok (mem ht).2 (mem ht).1.name ((mem ht).1.fks p hp)
  · obtain ⟨k, hk, rfl⟩ := List.mem_map.1 hb
    simp only [Dict.vals, List.mem_map] at hk
    obtain ⟨p, hp, rfl⟩ := hk
    exact relBlock_ok (mem ht).2 (mem ht).1.name ((mem ht).1.rels p hp)

end Verif
