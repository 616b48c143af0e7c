import Verif.Lemmas.AlterText
import Verif.Lemmas.ReadCreate
import Verif.Lemmas.Review
import Verif.Spec.CreateKeys
/-
Reading CREATE TABLE statements with keys.
-/

namespace Verif
open Spec

/-! ## Brackets -/

theorem isSpace_ub (c : Char) : isSpace (ub c) = isSpace c := by
  unfold ub
  split
  · rename_i h
    rcases h with rfl | rfl <;> decide
  · rfl

theorem ub_not_mem {s : Str} {c : Char} (h1 : c ≠ '"') (h2 : c ≠ '[') (h3 : c ≠ ']') (h : c ∉ s) : c ∉ s.map ub := by
  simp only [List.mem_map, not_exists, not_and]
  intro x hx e
  exact h (((ub_iff h1 h2 h3 x).1 e) ▸ hx)

theorem trim_ub {s : Str} (h : Trim s) : Trim (s.map ub) := by
  constructor
  · intro c hc
    rw [List.head?_map, Option.map_eq_some_iff] at hc
    obtain ⟨x, hx, rfl⟩ := hc
    rw [isSpace_ub]; exact h.1 x hx
  · intro c hc
    rw [List.getLast?_map, Option.map_eq_some_iff] at hc
    obtain ⟨x, hx, rfl⟩ := hc
    rw [isSpace_ub]; exact h.2 x hx

theorem lacks_ub {w s : Str} (hw : ∀ d ∈ w, d ≠ '"' ∧ d ≠ '[' ∧ d ≠ ']') : Lacks w (s.map ub) ↔ Lacks w s := by
  have := hasSub_lower_ub (s := s) hw
  rw [without_eq, without_eq, ← hasSub_iff, ← hasSub_iff, this]

theorem has_of_not_lacks {w s : Str} (h : ¬ Lacks w s) : hasSub w (lower s) = true := by
  rw [without_eq, not_not] at h
  exact hasSub_iff.2 h

theorem Spec.Snug.trim {s : Str} (h : Snug s) : Trim s := ⟨h.first, h.last⟩

theorem enclosed_flat {s : Str} (h : Enclosed s) : Flat (s.map ub) := by
  have key : ∀ {s : Str}, '(' ∉ s → ',' ∉ s → Flat (s.map ub) := by
    intro s h1 h2
    apply flat_plain
    intro c hc
    exact ⟨by rintro rfl; exact ub_not_mem (by decide) (by decide) (by decide) h1 hc, by rintro rfl; exact ub_not_mem (by decide) (by decide) (by decide) h2 hc⟩
  induction h with
  | plain h1 h2 => exact key h1 h2
  | @paren s a t h1 h2 h3 _ ih =>
    rw [List.map_append, List.map_cons, List.map_append, List.map_cons]
    refine (key h1 h2).append ?_
    exact Flat.paren (ub_not_mem (by decide) (by decide) (by decide) h3) ih

theorem filter_ub (x : Str) : (x.map ub).filter (fun c => !noise.contains c) = x.filter (fun c => !noise.contains c) := by
  induction x with
  | nil => rfl
  | cons c x ih =>
    rw [List.map_cons]
    by_cases h : c = '[' ∨ c = ']'
    · rw [List.filter_cons_of_neg (by simp [ub, h, noise]), ih, List.filter_cons_of_neg (by rcases h with rfl | rfl <;> decide)]
    · have : ub c = c := by simp [ub, h]
      rw [this, List.filter_cons, List.filter_cons, ih]

theorem written_ub {text n : Str} (h : Written text n) : Written (text.map ub) n := by
  obtain ⟨pre, a, x, b, rfl, hp, ha, hb, hx⟩ := h.shape
  have ht := trim_ub ⟨hx.first, hx.last⟩
  refine ⟨pre.map ub, a, x.map ub, b, ?_, ?_, ha, hb, ⟨by rw [filter_ub]; exact hx.name, ub_not_mem (by decide) (by decide) (by decide) hx.noDot, ht.1, ht.2⟩⟩
  · rw [List.map_append, List.map_append, List.map_append, map_ub_space ha, map_ub_space hb]
  · rcases hp with rfl | ⟨p, rfl⟩
    · exact .inl rfl
    · exact .inr ⟨p.map ub, by simp [ub]⟩

theorem map_intercalate {f : Char → Char} {c : Char} (hf : f c = c) : ∀ (ps : List Str), (List.intercalate [c] ps).map f = List.intercalate [c] (ps.map (·.map f))
  | [] => rfl
  | [p] => by simp [List.intercalate]
  | p :: q :: ps => by
    have ih := map_intercalate hf (q :: ps)
    simp only [List.intercalate, List.map_cons, List.intersperse_cons₂, List.flatten_cons, List.map_append, List.map_nil, hf] at ih ⊢
    rw [ih]

theorem columns_ub {text : Str} {ns : List Str} (h : Columns text ns) : Columns (text.map ub) ns := by
  obtain ⟨ps, hne, rfl, hf⟩ := h
  refine ⟨ps.map (·.map ub), by simpa using hne, map_intercalate (by decide) ps, ?_⟩
  rw [List.forall₂_map_left_iff]
  exact hf.imp (fun p n h => ⟨written_ub h.1, ub_not_mem (by decide) (by decide) (by decide) h.2⟩)

/-! ## The names of a primary key -/

theorem filter_intercalate {P : Char → Bool} {c : Char} (hP : P c = true) : ∀ (ps : List Str), (List.intercalate [c] ps).filter P = List.intercalate [c] (ps.map (·.filter P))
  | [] => rfl
  | [p] => by simp [List.intercalate]
  | p :: q :: ps => by
    have ih := filter_intercalate hP (q :: ps)
    simp only [List.intercalate, List.map_cons, List.intersperse_cons₂, List.flatten_cons, List.filter_append, List.filter_nil, List.filter_cons, hP, if_true] at ih ⊢
    rw [ih]

theorem keyName_read {p n : Str} (h : ∃ a q b, p = a ++ (Quote.wrap q n ++ b) ∧ (∀ c ∈ a, c = ' ') ∧ (∀ c ∈ b, c = ' ') ∧
    (q = .plain ∨ q = .double ∨ q = .bracket) ∧ ∀ c ∈ n, c ∉ c!" \",)[]") : ((p.map ub).filter (· ≠ ' ')).filter (· ≠ '"') = n := by
  obtain ⟨a, q, b, rfl, ha, hb, hq, hn⟩ := h
  have hblank : ∀ {a : Str}, (∀ c ∈ a, c = ' ') → (a.map ub).filter (· ≠ ' ') = [] := by
    intro a ha
    rw [List.filter_eq_nil_iff]
    intro c hc
    obtain ⟨x, hx, rfl⟩ := List.mem_map.1 hc
    rw [ha x hx]; decide
  have e1 : n.filter (· ≠ ' ') = n := by
    rw [List.filter_eq_self]
    intro c hc
    simp only [ne_eq, decide_eq_true_eq]
    rintro rfl
    exact hn _ hc (by decide)
  have e2 : n.filter (· ≠ '"') = n := by
    rw [List.filter_eq_self]
    intro c hc
    simp only [ne_eq, decide_eq_true_eq]
    rintro rfl
    exact hn _ hc (by decide)
  have hw := map_ub_wrap (q := q) (n := n) (fun c hc => ⟨by rintro rfl; exact hn _ hc (by decide), by rintro rfl; exact hn _ hc (by decide)⟩)
  rw [List.map_append, List.map_append, List.filter_append (p := fun x => decide (x ≠ ' ')), List.filter_append (p := fun x => decide (x ≠ ' ')), hblank ha, hblank hb,
    List.nil_append, List.append_nil, hw]
  rcases hq with rfl | rfl | rfl
  · simp only [ubQuote, Quote.wrap]
    rw [e1, e2]
  · simp only [ubQuote, Quote.wrap, List.filter_append]
    rw [e1, e2]; simp
  · simp only [ubQuote, Quote.wrap, List.filter_append]
    rw [e1, e2]; simp

theorem of_mem_intercalate {c x : Char} : ∀ {ps : List Str}, x ∈ List.intercalate [c] ps → x = c ∨ ∃ p ∈ ps, x ∈ p
  | [], h => by simp [List.intercalate] at h
  | [p], h => .inr ⟨p, by simp, by simpa [List.intercalate] using h⟩
  | p :: q :: ps, h => by
    have e : List.intercalate [c] (p :: q :: ps) = p ++ c :: List.intercalate [c] (q :: ps) := by simp [List.intercalate]
    rw [e, List.mem_append, List.mem_cons] at h
    rcases h with h | h | h
    · exact .inr ⟨p, by simp, h⟩
    · exact .inl h
    · rcases of_mem_intercalate h with h | ⟨r, hr, h⟩
      · exact .inl h
      · exact .inr ⟨r, by simp [hr], h⟩

theorem forall₂_left {α β : Type} {R : α → β → Prop} : ∀ {l : List α} {m : List β}, List.Forall₂ R l m → ∀ a ∈ l, ∃ b ∈ m, R a b
  | _, _, .nil, a, h => absurd h (by simp)
  | x :: l, y :: m, .cons h hs, a, ha => by
    rcases List.mem_cons.1 ha with rfl | ha
    · exact ⟨y, by simp, h⟩
    · obtain ⟨b, hb, hr⟩ := forall₂_left hs a ha
      exact ⟨b, by simp [hb], hr⟩

theorem forall₂_right {α β : Type} {R : α → β → Prop} : ∀ {l : List α} {m : List β}, List.Forall₂ R l m → ∀ b ∈ m, ∃ a ∈ l, R a b
  | _, _, .nil, a, h => absurd h (by simp)
  | x :: l, y :: m, .cons h hs, b, hb => by
    rcases List.mem_cons.1 hb with rfl | hb
    · exact ⟨x, by simp, h⟩
    · obtain ⟨a, ha, hr⟩ := forall₂_right hs b hb
      exact ⟨a, by simp [ha], hr⟩

theorem keyNames_paren {f : Str} {cols : List Str} (h : KeyNames f cols) : ')' ∉ f := by
  obtain ⟨ps, _, rfl, hf⟩ := h
  intro hm
  rcases of_mem_intercalate hm with h | ⟨p, hp, hm⟩
  · exact absurd h (by decide)
  · obtain ⟨n, _, a, q, b, rfl, ha, hb, hq, hn⟩ := forall₂_left hf p hp
    simp only [List.mem_append] at hm
    rcases hm with hm | hm | hm
    · exact absurd (ha _ hm) (by decide)
    · have hn' : ')' ∉ n := fun hc => hn _ hc (by decide)
      rcases hq with rfl | rfl | rfl <;> simp [Quote.wrap, hn'] at hm
    · exact absurd (hb _ hm) (by decide)

theorem fieldKeys_names {pre f post : Str} {cols : List Str} (h1 : '(' ∉ pre) (h : KeyNames f cols) :
    fieldKeys ((pre ++ '(' :: (f ++ ')' :: post)).map ub) = cols := by
  have hp := keyNames_paren h
  have e : (pre ++ '(' :: (f ++ ')' :: post)).map ub = pre.map ub ++ '(' :: (f.map ub ++ ')' :: post.map ub) := by simp [ub]
  obtain ⟨ps, hne, rfl, hf⟩ := h
  unfold fieldKeys
  rw [e, partitionS_char (ub_not_mem (by decide) (by decide) (by decide) h1), partitionS_char (ub_not_mem (by decide) (by decide) (by decide) hp)]
  simp only
  rw [replace_char_nil, replace_char_nil, map_intercalate (by decide), filter_intercalate (by decide), filter_intercalate (by decide), List.map_map, List.map_map]
  have e2 : ps.map (((fun x => List.filter (fun x => decide (x ≠ '"')) x) ∘ (fun x => List.filter (fun x => decide (x ≠ ' ')) x)) ∘ fun x => List.map ub x) = cols := by
    clear hne e hp
    induction hf with
    | nil => rfl
    | cons h _ ih => rw [List.map_cons, ih]; congr 1; exact keyName_read h
  have hc : cols ≠ [] := by
    intro e
    rw [e] at hf
    cases hf
    exact hne rfl
  rw [e2, splitC_intercalate hc]
  intro n hn hm
  obtain ⟨p, _, _, _, _, _, _, _, _, h⟩ := forall₂_right hf n hn
  exact h _ hm (by decide)

/-! ## The fields -/

theorem field_flat {f : Field} (h : FieldOk f) : Flat (f.text.map ub) ∧ Trim (f.text.map ub) ∧ f.text.map ub ≠ [] := by
  have ne : ∀ {s : Str}, ¬ Lacks c!"key " s → s.map ub ≠ [] := by
    intro s hs e
    rw [List.map_eq_nil_iff] at e
    subst e
    exact hs (without_nil (by decide))
  cases f with
  | column d => exact decl_field h
  | primary text cols =>
    have h : PrimaryText text cols := h
    refine ⟨?_, trim_ub h.snug.trim, ne h.key⟩
    obtain ⟨pre, f, post, e, h1, h2, h3, h4⟩ := h.shape
    exact enclosed_flat (e ▸ .paren h1 h2 (keyNames_paren h3) h4)
  | other text =>
    have h : OtherText text := h
    exact ⟨enclosed_flat h.enclosed, trim_ub h.snug.trim, ne h.key⟩

/-- What the parser makes of the text of a field. -/
def Reads (x : Str) : Field → Prop
  | .column d => hasSub c!"key " (lower x) = false ∧ ∀ t, convertType d.type = .ok t → fieldColumn x = .ok ⟨d.name, t⟩
  | .primary _ cols => hasSub c!"key " (lower x) = true ∧ hasSub c!"primary" (lower x) = true ∧ fieldKeys x = cols
  | .other _ => hasSub c!"key " (lower x) = true ∧ hasSub c!"primary" (lower x) = false

theorem reads_field {f : Field} (h : FieldOk f) : Reads (f.text.map ub) f := by
  cases f with
  | column d =>
    refine ⟨?_, fun t ht => (decl_column h ht).2⟩
    rw [Field.text, hasSub_lower_ub (by decide), hasSub_false_iff, ← small_lower]
    exact DeclOk.noKey h
  | primary text cols =>
    have h : PrimaryText text cols := h
    obtain ⟨pre, f, post, e, h1, h2, h3, h4⟩ := h.shape
    refine ⟨?_, ?_, ?_⟩
    · rw [Field.text, hasSub_lower_ub (by decide)]; exact has_of_not_lacks h.key
    · rw [Field.text, hasSub_lower_ub (by decide)]; exact has_of_not_lacks h.primary
    · rw [Field.text, e]; exact fieldKeys_names h1 h3
  | other text =>
    have h : OtherText text := h
    refine ⟨?_, ?_⟩
    · rw [Field.text, hasSub_lower_ub (by decide)]; exact has_of_not_lacks h.key
    · rw [Field.text, hasSub_lower_ub (by decide)]; exact hasSub_without h.notPrimary

/-- The primary key after some fields. -/
def keyAfter (k : List Str) (fs : List Field) : List Str := fs.foldl (fun k f => match f with | .primary _ cols => cols | _ => k) k

theorem fold_reads : ∀ {xs : List Str} {fs : List Field} {tys : List Str} {t : Table} {acc : List Column}, List.Forall₂ Reads xs fs →
    (columnsOf fs).map (fun d => convertType d.type) = tys.map .ok →
    xs.foldlM addField (t, acc) = .ok ({ t with pk := keyAfter t.pk fs }, acc ++ ((columnsOf fs).zip tys).map (fun p => ⟨p.1.name, p.2⟩))
  | _, _, tys, t, acc, .nil, _ => by simp [keyAfter, columnsOf]; rfl
  | x :: xs, f :: fs, tys, t, acc, .cons h hs, hty => by
    rw [List.foldlM_cons]
    cases f with
    | column d =>
      cases tys with
      | nil => simp [columnsOf] at hty
      | cons ty tys =>
        simp only [columnsOf, List.filterMap_cons, List.map_cons, List.cons.injEq] at hty
        have e : addField (t, acc) x = .ok (t, acc ++ [⟨d.name, ty⟩]) := by
          unfold addField
          simp [h.1, h.2 ty hty.1]
        have ih := fold_reads (t := t) (acc := acc ++ [⟨d.name, ty⟩]) hs hty.2
        rw [e]
        simp only [bind, Except.bind, ih]
        simp [keyAfter, columnsOf]
    | primary text cols =>
      have e : addField (t, acc) x = .ok ({ t with pk := cols }, acc) := by
        unfold addField
        simp [h.1, h.2.1, h.2.2]
      have ih := fold_reads (t := { t with pk := cols }) (acc := acc) hs (tys := tys) (by simpa [columnsOf] using hty)
      rw [e]
      simp only [bind, Except.bind, ih]
      simp [keyAfter, columnsOf]
    | other text =>
      have e : addField (t, acc) x = .ok (t, acc) := by
        unfold addField
        simp [h.1, h.2]
      have ih := fold_reads (t := t) (acc := acc) hs (tys := tys) (by simpa [columnsOf] using hty)
      rw [e]
      simp only [bind, Except.bind, ih]
      simp [keyAfter, columnsOf]

/-- The table a CREATE TABLE declares, but for its shard key. -/
def declared (schema n : Str) (fs : List Field) (tys : List Str) (sh : Option ShardKey) : Table :=
  { name := n, schema := schema, pk := primaryOf fs, shard := sh, fks := [], rels := [], cols := ((columnsOf fs).zip tys).map (fun p => (p.1.name, ⟨p.1.name, p.2⟩)) }

theorem parse_fields {schema : Str} {db : Database} {k path n w inner tail : Str} {xs : List Str} {fs : List Field} {tys : List Str} (hk : CreateHead k)
    (hp : TablePath path n) (hw : ∀ c ∈ w, isSpace c = true) (ht : ')' ∉ tail) (hraw : rawFieldsGo false [] (strip (inner.map ub)) = xs) (hr : List.Forall₂ Reads xs fs)
    (hty : (columnsOf fs).map (fun d => convertType d.type) = tys.map .ok) (hn : ((columnsOf fs).map (·.name)).Nodup)
    (hdb : Lacks c!"create database" (k ++ path ++ w ++ '(' :: inner ++ ')' :: tail)) :
    parseStatement schema db (k ++ path ++ w ++ '(' :: inner ++ ')' :: tail) = .ok (db.addTable
      (if hasSub c!"partition by hash" (lower (k ++ path ++ w ++ '(' :: inner ++ ')' :: tail)) then
        addHashKey (declared schema n fs tys none) ((k ++ path ++ w ++ '(' :: inner ++ ')' :: tail).map ub) else declared schema n fs tys none)) := by
  have hlen : (columnsOf fs).length = tys.length := by simpa using congrArg List.length hty
  have hnames : (((columnsOf fs).zip tys).map (fun p => (⟨p.1.name, p.2⟩ : Column))).map (·.name) = (columnsOf fs).map (·.name) := by
    rw [List.map_map, show (fun c : Column => c.name) ∘ (fun p : Decl × Str => (⟨p.1.name, p.2⟩ : Column)) = (fun d : Decl => d.name) ∘ Prod.fst from rfl,
      ← List.map_map, List.map_fst_zip (by omega)]
  have hparen : '(' ∉ k ++ path.map ub ++ w := by
    have hparen : '(' ∉ path.map ub := ub_not_mem (by decide) (by decide) (by decide) hp.noParen
    simp only [List.mem_append, not_or]
    exact ⟨⟨(createHead_ub hk).2, hparen⟩, fun hc => absurd (hw _ hc) (by decide)⟩
  have htail : ')' ∉ tail.map ub := ub_not_mem (by decide) (by decide) (by decide) ht
  have estmt : (k ++ path ++ w ++ '(' :: inner ++ ')' :: tail).map ub =
      k ++ path.map ub ++ w ++ '(' :: (inner.map ub) ++ ')' :: (tail.map ub) := by
    simp only [List.map_append, List.map_cons, (createHead_ub hk).1, map_ub_space hw]
    rfl
  have hrf : rawFields (k ++ path.map ub ++ w ++ '(' :: (inner.map ub) ++ ')' :: (tail.map ub)) = xs := by
    rw [rawFields_body hparen htail, hraw]
  have hname := getTableName_path hk hp hw (rest := inner.map ub ++ ')' :: (tail.map ub))
  have hcols := addColumns_cols (((columnsOf fs).zip tys).map (fun p => (⟨p.1.name, p.2⟩ : Column))) ⟨n, schema, keyAfter [] fs, none, [], [], []⟩ (by
    rw [hnames]; simpa [Dict.keys] using hn)
  have hadd : addColumnsOf ⟨n, schema, [], none, [], [], []⟩ (k ++ path.map ub ++ w ++ '(' :: (inner.map ub) ++ ')' :: (tail.map ub)) =
      .ok (declared schema n fs tys none) := by
    unfold addColumnsOf
    rw [hrf, fold_reads hr hty]
    simp only [bind, Except.bind, List.nil_append]
    rw [hcols]
    simp [Function.comp_def, declared, primaryOf, keyAfter]
    rfl
  have hc : (hasSub c!"create table" (lower (k ++ path ++ w ++ '(' :: inner ++ ')' :: tail)) ||
      hasSub c!"create or replace table" (lower (k ++ path ++ w ++ '(' :: inner ++ ')' :: tail))) = true := by
    have hpre : ∀ {x y : Str}, x <:+: lower k → x <:+: lower (k ++ y) := by
      intro x y h
      rw [lower_append]
      exact h.trans (List.prefix_append _ _).isInfix
    rw [Bool.or_eq_true]
    simp only [List.append_assoc]
    cases hk with
    | create h => exact .inl (hasSub_iff.2 (hpre (by rw [← small_lower, h]; decide)))
    | replace h => exact .inr (hasSub_iff.2 (hpre (by rw [← small_lower, h]; decide)))
  unfold parseStatement
  simp only [hc, if_true, hasSub_without hdb, Bool.false_eq_true, if_false]
  unfold parseCreateTable
  simp only [unbracket]
  rw [hasSub_lower_ub (by decide), estmt]
  rw [show k ++ path.map ub ++ w ++ '(' :: (inner.map ub ++ ')' :: (tail.map ub)) = k ++ path.map ub ++ w ++ '(' :: (inner.map ub) ++ ')' :: (tail.map ub)
    from by simp] at hname
  rw [hname]
  simp only [mkTable, bind, Except.bind, hadd]

/-- Without a partition clause. -/
theorem parse_create_keys {schema : Str} {db : Database} {k path n w body tail : Str} {fs : List Field} {tys : List Str} (hk : CreateHead k)
    (hp : TablePath path n) (hw : ∀ c ∈ w, isSpace c = true) (hb : FieldList (fs.map Field.text) body) (hf : ∀ f ∈ fs, FieldOk f) (ht : ')' ∉ tail)
    (hty : (columnsOf fs).map (fun d => convertType d.type) = tys.map .ok) (hn : ((columnsOf fs).map (·.name)).Nodup)
    (hdb : Lacks c!"create database" (k ++ path ++ w ++ '(' :: body ++ ')' :: tail)) (hs : Lacks c!"partition by hash" (k ++ path ++ w ++ '(' :: body ++ ')' :: tail)) :
    parseStatement schema db (k ++ path ++ w ++ '(' :: body ++ ')' :: tail) = .ok (db.addTable (declared schema n fs tys none)) := by
  have hl := map_ub_list hb
  rw [List.map_map] at hl
  have hfl : ∀ x ∈ fs.map ((fun x => x.map ub) ∘ Field.text), Flat x ∧ Trim x ∧ x ≠ [] := by
    intro x hx
    obtain ⟨f, hf', rfl⟩ := List.mem_map.1 hx
    exact field_flat (hf f hf')
  have hraw := rawFieldsGo_list (fieldList_strip hl (fun x hx => (hfl x hx).2)) hfl
  have hr : List.Forall₂ Reads (fs.map ((fun x => x.map ub) ∘ Field.text)) fs := by
    rw [List.forall₂_map_left_iff]
    clear hb hl hfl hraw hty hn
    induction fs with
    | nil => exact .nil
    | cons f fs ih => exact .cons (reads_field (hf f (by simp))) (ih (fun g hg => hf g (by simp [hg])))
  rw [parse_fields hk hp hw ht hraw hr hty hn hdb, hasSub_without hs]
  simp

/-! ## The partition clause -/

theorem fieldList_extend {fs : List Str} {body : Str} (h : FieldList fs body) : ∃ init last b, fs = init ++ [last] ∧ White b ∧
    ∀ X ws : Str, White ws → FieldList (init ++ [last ++ b ++ X]) (body ++ X ++ ws) := by
  induction h with
  | @one f a b ha hb =>
    refine ⟨[], f, b, rfl, hb, fun X ws hws => ?_⟩
    have := FieldList.one (f := f ++ b ++ X) ha hws
    simpa using this
  | @cons f a b fs s ha hb _ ih =>
    obtain ⟨init, last, b', e, hb', ih⟩ := ih
    refine ⟨f :: init, last, b', by rw [e]; rfl, hb', fun X ws hws => ?_⟩
    have := FieldList.cons (f := f) ha hb (ih X ws hws)
    simpa using this

theorem rawFieldsGo_open_last {init : List Str} {last P g s : Str} (h : FieldList (init ++ [last]) s) (hf : ∀ f ∈ init, Flat f ∧ Trim f ∧ f ≠ []) (ht : Trim last)
    (e : last = P ++ '(' :: g) (hP : Flat P) (hg : ')' ∉ g) : rawFieldsGo false [] s = init ++ [last] := by
  generalize hfs : init ++ [last] = fs at h
  induction h generalizing init with
  | @one f a b ha hb =>
    have : init = [] ∧ last = f := by
      cases init with
      | nil => simpa using hfs
      | cons x l => simp at hfs
    obtain ⟨rfl, rfl⟩ := this
    have hx := (flat_space ha).append hP
    rw [e, show a ++ (P ++ '(' :: g) ++ b = (a ++ P) ++ '(' :: (g ++ b) from by simp, rawFieldsGo_flat hx, rawFieldsGo, if_pos rfl, rawFieldsGo_tail (by
      simp only [List.mem_append, not_or]
      exact ⟨hg, fun hc => absurd (hb _ hc) (by decide)⟩), if_pos (by simp)]
    have := strip_pads ha hb ht
    rw [e] at this
    simp only [List.append_assoc, List.cons_append, List.nil_append] at this ⊢
    rw [this]
  | @cons f a b fs s ha hb hfl ih =>
    cases init with
    | nil =>
      simp only [List.nil_append, List.cons.injEq] at hfs
      exact absurd hfs.2.symm (fieldList_ne_nil hfl)
    | cons x l =>
      simp only [List.cons_append, List.cons.injEq] at hfs
      obtain ⟨rfl, hfs⟩ := hfs
      obtain ⟨h1, h2, h3⟩ := hf x (by simp)
      have hx := (((flat_space ha).append h1).append (flat_space hb))
      rw [rawFieldsGo_flat hx, List.nil_append, rawFieldsGo, if_neg (by decide), if_pos rfl, strip_pads ha hb h2,
        ih (fun y hy => hf y (by simp [hy])) hfs]

theorem small_close {c : Char} : small c = ')' ↔ c = ')' := by
  have := Props.lower_eq [c]
  simp only [lower, List.map_cons, List.map_nil, List.cons.injEq, and_true] at this
  rw [← this]
  exact lowerC_special (by decide) (by decide)

/-- A phrase whose first character does not occur in the first part. -/
theorem infix_foreign_prefix {c : Char} {w a b : Str} (ha : c ∉ a) (h : c :: w <:+: a ++ b) : c :: w <:+: b := by
  induction a with
  | nil => simpa using h
  | cons x a ih =>
    simp only [List.mem_cons, not_or] at ha
    rw [List.cons_append, List.infix_cons_iff] at h
    rcases h with h | h
    · rw [List.cons_prefix_cons] at h; exact absurd h.1 ha.1
    · exact ih ha.2 h

theorem search_partition {k x kw a n kw' gap f rest : Str} (hk : k.map small = c!"create table") (hkw : kw.map small = c!"partition by hash") (hkw' : kw'.map small = c!") key")
    (hx : '\n' ∉ x ++ a ++ n ++ gap ++ f) (ha : '(' ∉ a ∧ ')' ∉ a) (hn : '(' ∉ n ∧ ')' ∉ n) (hg : '(' ∉ gap ∧ ')' ∉ gap) (hf : '(' ∉ f ∧ ')' ∉ f) (hr : '(' ∉ rest ∧ ')' ∉ rest)
    (l1 : Lacks c!") key" (')' :: rest)) (l2 : Lacks c!"partition by hash" (kw ++ (a ++ '(' :: (n ++ (kw' ++ (gap ++ '(' :: (f ++ ')' :: rest)))))).tail) :
    reSearch patHash (k ++ (x ++ (kw ++ (a ++ '(' :: (n ++ (kw' ++ (gap ++ '(' :: (f ++ ')' :: rest)))))))) = some [n, f] := by
  simp only [List.mem_append, not_or] at hx
  obtain ⟨⟨⟨⟨hx, hxa⟩, hxn⟩, hxg⟩, hxf⟩ := hx
  have lowP : ∀ {c : Char} {s : Str}, isLowerA c = false → isUpperA c = false → c ∉ s → c ∉ lower s := fun h1 h2 h h' => h ((mem_lower_special h1 h2).1 h')
  have one : ∀ {c : Char} {s : Str}, isLowerA c = false → isUpperA c = false → c ∉ s → ¬ lower [c] <:+: lower s := by
    intro c s h1 h2 h h'
    refine lowP h1 h2 h (h'.subset ?_)
    simp [lower, lowerC, h2]
  have m5 : reMatch (.star true true :: (lit c!")" ++ [])) (f ++ ')' :: rest) = some [f] := by
    have := reMatch_star_last (cap := true) (w := c!")") (a := f) (m := c!")") (s := rest) (ts := []) (gs := []) hxf rfl rfl (one (by decide) (by decide) hr.2)
    simpa [starGroups] using this
  have m4 : reMatch (.star true false :: (lit c!"(" ++ (.star true true :: (lit c!")" ++ [])))) (gap ++ '(' :: (f ++ ')' :: rest)) = some [f] := by
    have := reMatch_star_last (cap := false) (w := c!"(") (a := gap) (m := c!"(") (s := f ++ ')' :: rest) hxg rfl m5 (one (by decide) (by decide) (by
      simp only [List.cons_append, List.nil_append, List.tail_cons, List.mem_append, List.mem_cons, not_or]
      exact ⟨hf.1, by decide, hr.1⟩))
    simpa [starGroups] using this
  have noClose : ∀ {s : Str}, ')' ∉ s → Lacks c!") key" (s ++ ')' :: rest) := by
    intro s hs h
    rw [List.map_append] at h
    refine l1 (infix_foreign_prefix ?_ h)
    intro hm
    obtain ⟨c, hc, e⟩ := List.mem_map.1 hm
    exact hs ((small_close.1 e) ▸ hc)
  have m3 : reMatch (.star true true :: (lit c!") key" ++ (.star true false :: (lit c!"(" ++ (.star true true :: (lit c!")" ++ []))))))
      (n ++ (kw' ++ (gap ++ '(' :: (f ++ ')' :: rest)))) = some [n, f] := by
    have := reMatch_star_last (cap := true) (w := c!") key") (a := n) (m := kw') (s := gap ++ '(' :: (f ++ ')' :: rest)) hxn (keyword_lower hkw' rfl) m4 (by
      apply not_infix rfl
      have e : (kw' ++ (gap ++ '(' :: (f ++ ')' :: rest))).tail = (kw'.tail ++ (gap ++ '(' :: f)) ++ ')' :: rest := by
        cases kw' with
        | nil => simp at hkw'
        | cons c t => simp
      rw [e]
      apply noClose
      simp only [List.mem_append, List.mem_cons, not_or]
      refine ⟨?_, hg.2, by decide, hf.2⟩
      intro hc
      have : small ')' ∈ (kw'.map small).tail := by rw [← List.map_tail]; exact List.mem_map_of_mem hc
      rw [hkw'] at this
      revert this; decide)
    simpa [starGroups] using this
  have m2 : reMatch (.star true false :: (lit c!"(" ++ (.star true true :: (lit c!") key" ++ (.star true false :: (lit c!"(" ++ (.star true true :: (lit c!")" ++ []))))))))
      (a ++ '(' :: (n ++ (kw' ++ (gap ++ '(' :: (f ++ ')' :: rest))))) = some [n, f] := by
    have := reMatch_star (cap := false) (w := c!"(") (a := a) (m := c!"(") (s := n ++ (kw' ++ (gap ++ '(' :: (f ++ ')' :: rest)))) hxa rfl m3 (by
      intro y hy hp
      obtain ⟨z, rfl⟩ : ∃ z, y = '(' :: z := by
        cases y with
        | nil => simp [lower] at hp
        | cons c z =>
          simp only [lower, List.map_cons, List.map_nil, List.cons_prefix_cons] at hp
          have : lowerC c = '(' := hp.1.symm
          exact ⟨z, by rw [(lowerC_special (by decide) (by decide)).1 this]⟩
      have hz : z = f ++ ')' :: rest := by
        apply suffix_paren (a := n ++ (kw' ++ gap)) (b := f ++ ')' :: rest)
        · simp only [List.mem_append, not_or]
          refine ⟨hn.1, ?_, hg.1⟩
          intro hc
          have : small '(' ∈ kw'.map small := List.mem_map_of_mem hc
          rw [hkw'] at this
          revert this; decide
        · simp only [List.mem_append, List.mem_cons, not_or]; exact ⟨hf.1, by decide, hr.1⟩
        · simpa using hy
      subst hz
      have := reMatch_missing (w := c!") key") (us := (.star true false :: (lit c!"(" ++ (.star true true :: (lit c!")" ++ []))))) [.star true true]
        (s := f ++ ')' :: rest) (not_infix rfl (noClose hf.2))
      exact this)
    simpa [starGroups] using this
  have m1 : reMatch (.star true false :: (lit c!"partition by hash" ++ (.star true false :: (lit c!"(" ++ (.star true true :: (lit c!") key" ++ (.star true false :: (lit c!"(" ++ (.star true true :: (lit c!")" ++ []))))))))))
      (x ++ (kw ++ (a ++ '(' :: (n ++ (kw' ++ (gap ++ '(' :: (f ++ ')' :: rest))))))) = some [n, f] := by
    have := reMatch_star_last (cap := false) (w := c!"partition by hash") (a := x) (m := kw)
      (s := a ++ '(' :: (n ++ (kw' ++ (gap ++ '(' :: (f ++ ')' :: rest))))) hx (keyword_lower hkw rfl) m2 (not_infix rfl l2)
    simpa [starGroups] using this
  apply reSearch_first
  have := reMatch_lit_eq (w := c!"create table") (m := k) (keyword_lower hk rfl)
    (.star true false :: (lit c!"partition by hash" ++ (.star true false :: (lit c!"(" ++ (.star true true :: (lit c!") key" ++ (.star true false :: (lit c!"(" ++ (.star true true :: (lit c!")" ++ []))))))))))
    (x ++ (kw ++ (a ++ '(' :: (n ++ (kw' ++ (gap ++ '(' :: (f ++ ')' :: rest)))))))
  rw [m1] at this
  simpa [patHash, dots, group] using this

/-! ## The last field -/

theorem typeText_paren {a b : Str} (h : ')' ∉ a) : typeText (a ++ ')' :: b) = lower (a ++ [')']) := by
  have : hasSub c!")" (a ++ ')' :: b) = true := hasSub_iff.2 ⟨a, b, by simp⟩
  unfold typeText
  rw [if_pos this, pyFind_char h]
  congr 1
  have := pySlice_zero (a ++ ')' :: b) (a.length + 1)
  rw [show ((a.length : Int) + 1) = ((a.length + 1 : Nat) : Int) from by push_cast; rfl, this]
  simp [List.take_append]

theorem typeText_word {a : Str} (h : ')' ∉ a) (hb : ' ' ∉ a) : typeText a = lower a := by
  have h1 : hasSub c!")" a = false := by
    rw [hasSub_false_iff]; exact fun hi => h (hi.subset (by simp))
  have h2 : hasSub c!" " a = false := by
    rw [hasSub_false_iff]; exact fun hi => hb (hi.subset (by simp))
  unfold typeText
  rw [if_neg (by simp [h1]), if_neg (by simp [h2])]

theorem infix_foreign_right {w a b : Str} (hne : w ≠ []) (hb : ∀ c ∈ b, c ∉ w) (h : w <:+: a ++ b) : w <:+: a := by
  rw [← List.reverse_infix, List.reverse_append] at h
  have := infix_foreign_left (by simpa using hne) (fun c hc => by simpa using hb c (by simpa using hc)) h
  rwa [List.reverse_infix] at this

theorem lowerC_space {c : Char} (h : isSpace c = true) : lowerC c = c := by
  unfold lowerC
  rw [if_neg]
  intro hu
  unfold isUpperA at hu
  unfold isSpace at h
  simp only [Bool.and_eq_true, decide_eq_true_eq, Char.le_def, UInt32.le_iff_toNat_le] at hu
  have h1 : 65 ≤ c.toNat := hu.1
  have h2 : c.toNat ≤ 90 := hu.2
  simp at h
  omega

/-- Text after a type and a closing parenthesis do not matter unless the type is NUMBER or the text names a type. -/
theorem convertType_close {ty rest b : Str} (h1 : ')' ∉ ty) (h2 : ' ' ∉ ty) (hr : rest = [] ∨ ∃ r, rest = ' ' :: r) (hr' : ')' ∉ rest) (hb : White b) (hn : Lacks c!"number" ty)
    (hw : ∀ v ∈ typeWords, Lacks v rest) : convertType (ty ++ rest ++ b ++ [')']) = convertType ty := by
  have hb' : ')' ∉ ty ++ rest ++ b := by
    simp only [List.mem_append, not_or]
    exact ⟨⟨h1, hr'⟩, fun hc => absurd (hb _ hc) (by decide)⟩
  have e1 : typeText (ty ++ rest ++ b ++ [')']) = (lower ty ++ lower rest) ++ lower (b ++ [')']) := by
    rw [typeText_paren (b := []) hb', List.append_assoc, lower_append, lower_append]
  have e2 := typeText_word h1 h2
  have hfar : ∀ c ∈ lower (b ++ [')']), isSpace c = true ∨ c = ')' := by
    intro c hc
    rw [lower_append, List.mem_append] at hc
    rcases hc with hc | hc
    · left
      obtain ⟨x, hx, rfl⟩ := List.mem_map.1 hc
      rw [show lowerC x = x from lowerC_space (hb x hx)]
      exact hb x hx
    · right
      revert hc; simp [lower, lowerC, isUpperA]
  have hwords : ∀ v ∈ typeWords, v ≠ [] ∧ ∀ c ∈ v, isSpace c = false ∧ c ≠ ')' := by decide
  have H : ∀ v ∈ typeWords, hasSub v ((lower ty ++ lower rest) ++ lower (b ++ [')'])) = hasSub v (lower ty) := by
    intro v hv'
    obtain ⟨hv, hc⟩ := hwords v hv'
    rw [Bool.eq_iff_iff, hasSub_iff, hasSub_iff]
    constructor
    · intro h
      have h := infix_foreign_right hv (fun c hm hcv => by
        rcases hfar c hm with h | h
        · rw [(hc c hcv).1] at h; simp at h
        · exact (hc c hcv).2 h) h
      have hno := without_eq.1 (hw v hv')
      rcases hr with rfl | ⟨r, rfl⟩
      · simpa [lower] using h
      · rw [show lower (' ' :: r) = ' ' :: lower r from by simp [lower, lowerC, isUpperA]] at h hno
        rcases infix_sep (fun hm => absurd (hc _ hm).1 (by decide)) h with h | h
        · exact h
        · exact absurd (h.trans (List.suffix_cons _ _).isInfix) hno
    · intro h
      exact h.trans (((List.prefix_append _ _).trans (List.prefix_append _ _)).isInfix)
  unfold convertType
  simp only [e1, e2]
  rw [H c!"int" (by decide), H c!"rowversion" (by decide), H c!"uniqueidentifier" (by decide), H c!"sysname" (by decide),
    H c!"serial" (by decide), H c!"bit" (by decide), H c!"blob" (by decide), H c!"binary" (by decide),
    H c!"number" (by decide), H c!"decimal" (by decide), H c!"numeric" (by decide), H c!"float" (by decide),
    H c!"double" (by decide), H c!"money" (by decide), H c!"real" (by decide), H c!"datetime" (by decide),
    H c!"timestamp" (by decide), H c!"time" (by decide), H c!"date" (by decide), H c!"bool" (by decide),
    H c!"text" (by decide), H c!"long" (by decide), H c!"enum" (by decide), H c!"xml" (by decide),
    H c!"char" (by decide), hasSub_without hn]
  simp

theorem small_space {c : Char} (h : isSpace c = true) : small c = c := by
  have := Props.lower_eq [c]
  simp only [lower, List.map_cons, List.map_nil, List.cons.injEq, and_true] at this
  rw [← this, lowerC_space h]

theorem typeText_close {w args : Str} (h : TypeText (w ++ c!"(" ++ args ++ c!")")) : ')' ∉ w ++ c!"(" ++ args := by
  generalize e : w ++ c!"(" ++ args ++ c!")" = x at h
  cases h with
  | word _ hw => exact absurd (hw ')' (by rw [← e]; simp)).2 (by decide)
  | @sized w' args' _ hw ha =>
    rw [(List.append_inj' e rfl).1]
    simp only [List.mem_append, List.mem_singleton, not_or]
    exact ⟨⟨fun hc => (hw _ hc).2 (by decide), by decide⟩, fun hc => ha _ hc (by decide)⟩

/-- White space after a text adds no `key ` unless a blank does. -/
theorem key_blanks {s b : Str} (h : Lacks c!"key " (s ++ [' '])) (hb : White b) : Lacks c!"key " (s ++ b) := by
  have key : ∀ (u : Str) {s' : Str}, White u → c!" yek" <:+: u ++ s' → c!" yek" <:+: ' ' :: s' := by
    intro u
    induction u with
    | nil => intro s' _ h; exact h.trans (List.suffix_cons _ _).isInfix
    | cons c u ih =>
      intro s' hu h
      rw [List.cons_append, List.infix_cons_iff] at h
      rcases h with h | h
      · rw [List.cons_prefix_cons] at h
        cases u with
        | nil => exact (List.cons_prefix_cons.2 ⟨rfl, by simpa using h.2⟩).isInfix
        | cons d u =>
          have := h.2
          rw [List.cons_append, List.cons_prefix_cons] at this
          exact absurd (hu d (by simp)) (by rw [← this.1]; decide)
      · exact ih (fun x hx => hu x (by simp [hx])) h
  intro h'
  apply h
  have eb : b.map small = b := by
    conv => rhs; rw [← List.map_id b]
    exact List.map_congr_left (fun c hc => small_space (hb c hc))
  rw [List.map_append, eb, ← List.reverse_infix, List.reverse_append] at h'
  have := key b.reverse (fun x hx => hb x (by simpa using hx)) h'
  rw [← List.reverse_infix, List.map_append, List.reverse_append, show [' '].map small = [' '] by decide]
  simpa using this

/-- The last field together with a clause that follows the list. -/
theorem reads_last {f : Field} {b z tail : Str} (hf : FieldOk f) (hl : LastOk tail f) (hb : White b) (hz : z <+: tail) :
    Reads ((f.text ++ b ++ ')' :: z).map ub) f := by
  have hz' : ∀ {w : Str}, Lacks w tail → Lacks w z := fun h => lacks_infix h hz.isInfix
  have blanks : ∀ {w s : Str}, w ≠ [] → Lacks w s → (∀ c, isSpace c = true → small c ∉ w) → Lacks w (s ++ b) := by
    intro w s hw hs hc
    cases b with
    | nil => simpa using hs
    | cons c t =>
      refine without_sep (hc c (hb c (by simp))) hs ?_
      intro h
      obtain ⟨d, hd⟩ := List.exists_mem_of_ne_nil w hw
      obtain ⟨x, hx, e⟩ := List.mem_map.1 (h.subset hd)
      exact hc x (hb x (by simp [hx])) (e ▸ hd)
  have has : ∀ {w : Str}, (∀ d ∈ w, d ≠ '"' ∧ d ≠ '[' ∧ d ≠ ']') → ¬ Lacks w f.text → hasSub w (lower ((f.text ++ b ++ ')' :: z).map ub)) = true := by
    intro w hw h
    rw [hasSub_lower_ub hw]
    apply has_of_not_lacks
    intro h'
    exact h (lacks_infix h' ⟨[], b ++ ')' :: z, by simp⟩)
  cases hl with
  | @primary text cols =>
    have h : PrimaryText text cols := hf
    refine ⟨has (by decide) h.key, has (by decide) h.primary, ?_⟩
    obtain ⟨pre, g, post, e, h1, h2, h3, h4⟩ := h.shape
    have := fieldKeys_names (post := post ++ b ++ ')' :: z) h1 h3
    rw [← this]
    simp only [Field.text, e]
    simp
  | @other text hp =>
    have h : OtherText text := hf
    refine ⟨has (by decide) h.key, ?_⟩
    rw [hasSub_lower_ub (by decide)]
    refine hasSub_without (without_sep (by decide) (blanks (by decide) h.notPrimary ?_) (hz' hp))
    intro c hc
    rw [small_space hc]
    intro hm
    have : ∀ c ∈ c!"primary", isSpace c = false := by decide
    rw [this c hm] at hc
    simp at hc
  | @sized d w args hk hk' hty =>
    have h : DeclOk d := hf
    have noKey : hasSub c!"key " (lower (((Field.column d).text ++ b ++ ')' :: z).map ub)) = false := by
      rw [hasSub_lower_ub (by decide)]
      exact hasSub_without (without_sep (by decide) (key_blanks hk' hb) (hz' hk))
    refine ⟨noKey, fun t ht => ?_⟩
    have hu : TypeAt ((d.type ++ d.rest) ++ (b ++ ')' :: z.map ub)) d.type := by
      have hno : ')' ∉ w ++ c!"(" ++ args := by
        have htt := h.type
        rw [hty] at htt
        exact typeText_close htt
      rw [hty]
      have := TypeAt.paren (b := d.rest ++ (b ++ ')' :: z.map ub)) hno
      simpa using this
    rw [show ((Field.column d).text ++ b ++ ')' :: z).map ub = (ubQuote d.quote).wrap d.name ++ ' ' :: ((d.type ++ d.rest) ++ (b ++ ')' :: z.map ub)) from by
      rw [List.map_append, List.map_append, Field.text, decl_ub h, map_ub_space hb]; simp [ub]]
    rw [wrap_column (ubQuote_ne _) (ubQuote_fits h.fits) hu, ht]
    exact mkColumn_converted ht
  | @word d hk hk' hp hr hnum =>
    have h : DeclOk d := hf
    have noKey : hasSub c!"key " (lower (((Field.column d).text ++ b ++ ')' :: z).map ub)) = false := by
      rw [hasSub_lower_ub (by decide)]
      exact hasSub_without (without_sep (by decide) (key_blanks hk' hb) (hz' hk))
    refine ⟨noKey, fun t ht => ?_⟩
    have hblank : ' ' ∉ d.type := by
      have htt := h.type
      generalize d.type = ty at htt hp
      cases htt with
      | word _ hw => exact fun hc => absurd (hw _ hc).1 (by decide)
      | sized _ _ _ => exact absurd (by simp) hp
    have hrp : ')' ∉ d.rest := fun hc => h.restPlain _ hc (by decide)
    have hu : TypeAt (d.type ++ (d.rest ++ (b ++ ')' :: z.map ub))) (d.type ++ d.rest ++ b ++ [')']) := by
      have := TypeAt.paren (a := d.type ++ d.rest ++ b) (b := z.map ub) (by
        simp only [List.mem_append, not_or]
        exact ⟨⟨hp, hrp⟩, fun hc => absurd (hb _ hc) (by decide)⟩)
      simpa using this
    rw [show ((Field.column d).text ++ b ++ ')' :: z).map ub = (ubQuote d.quote).wrap d.name ++ ' ' :: (d.type ++ (d.rest ++ (b ++ ')' :: z.map ub))) from by
      rw [List.map_append, List.map_append, Field.text, decl_ub h, map_ub_space hb]; simp [ub]]
    rw [wrap_column (ubQuote_ne _) (ubQuote_fits h.fits) hu, convertType_close hp hblank (h.rest.imp id (fun ⟨r, c, e, _⟩ => ⟨r ++ [c], by rw [e]; simp⟩)) hrp hb hnum hr, ht]
    exact mkColumn_converted ht

theorem rstrip_last {s : Str} {c : Char} (h : (rstrip s).getLast? = some c) : isSpace c = false := by
  unfold rstrip at h
  rw [List.getLast?_reverse] at h
  have := List.head?_dropWhile_not isSpace s.reverse
  rw [h] at this
  simpa using this

/-! ## The statement -/

theorem keyword_ub {kw v : Str} (h : kw.map small = v) (hv : '[' ∉ v ∧ ']' ∉ v) : kw.map ub = kw :=
  map_ub (fun c hc => ⟨by rintro rfl; exact hv.1 (h ▸ List.mem_map_of_mem hc), by rintro rfl; exact hv.2 (h ▸ List.mem_map_of_mem hc)⟩)

theorem intValue_ub {n : Str} {m : Int} (h : IntValue n m) : n.map ub = n := by
  obtain ⟨pre, sign, ds, post, h1, h2, hs, ⟨g, rest, _, hg, hr, e⟩, rfl, _⟩ := h
  have hd : ∀ c, digit c = true → c ≠ '[' ∧ c ≠ ']' := fun c hc => ⟨by rintro rfl; revert hc; decide, by rintro rfl; revert hc; decide⟩
  have hsp : ∀ c, isSpace c = true → c ≠ '[' ∧ c ≠ ']' := fun c hc => ⟨by rintro rfl; revert hc; decide, by rintro rfl; revert hc; decide⟩
  apply map_ub
  intro c hc
  simp only [List.mem_append, e, List.mem_flatMap, List.mem_cons] at hc
  rcases hc with ((hc | hc) | hc | ⟨r, hr', rfl | hc⟩) | hc
  · exact hsp c (h1 c hc)
  · rcases hs with rfl | rfl | rfl
    · simp at hc
    · simp only [List.mem_singleton] at hc; subst hc; decide
    · simp only [List.mem_singleton] at hc; subst hc; decide
  · exact hd c (hg c hc)
  · decide
  · exact hd c ((hr r hr').2 c hc)
  · exact hsp c (h2 c hc)

/-- With a partition clause. -/
theorem parse_create_sharded {schema : Str} {db : Database} {k path n w body tail : Str} {fs : List Field} {last : Field} {tys : List Str} {number : Int} {keys : List Str}
    (hk : k.map small = c!"create table ") (hp : TablePath path n) (hw : ∀ c ∈ w, isSpace c = true) (hb : FieldList ((fs ++ [last]).map Field.text) body)
    (hf : ∀ f ∈ fs ++ [last], FieldOk f) (hlast : LastOk tail last) (hpt : PartitionText tail number keys)
    (hty : (columnsOf (fs ++ [last])).map (fun d => convertType d.type) = tys.map .ok) (hn : ((columnsOf (fs ++ [last])).map (·.name)).Nodup)
    (hdb : Lacks c!"create database" (k ++ path ++ w ++ '(' :: body ++ ')' :: tail)) (hline : '\n' ∉ k ++ path ++ w ++ '(' :: body ++ ')' :: tail) :
    parseStatement schema db (k ++ path ++ w ++ '(' :: body ++ ')' :: tail) =
      .ok (db.addTable (declared schema n (fs ++ [last]) tys (some { keys := keys, number := .int number }))) := by
  obtain ⟨w1, kw, a, m, kw', gap, g, rest, etail, hkw, hm, hkw', hg, hc1, hc2, l1, l2⟩ := hpt.shape
  have out : ∀ {c : Char}, c ∈ c!"(),"  → c ∉ w1 ∧ c ∉ a ∧ c ∉ gap := by
    intro c hc
    have := fun (h : c ∈ w1 ++ a ++ gap) => hc1 c h hc
    simp only [List.mem_append, not_or] at this
    tauto
  have inn : ∀ {c : Char}, c ∈ c!"()"  → c ∉ m ∧ c ∉ g ∧ c ∉ rest := by
    intro c hc
    have := fun (h : c ∈ m ++ g ++ rest) => hc2 c h hc
    simp only [List.mem_append, not_or] at this
    tauto
  have nkw : ∀ {c : Char}, small c = c → c ∉ c!"partition by hash" → c ∉ kw := fun h1 h2 h => h2 (by rw [← hkw, ← h1]; exact List.mem_map_of_mem h)
  obtain ⟨k1, k2, rfl, hk1, hk2⟩ : ∃ k1 k2, k = k1 ++ k2 ∧ k1.map small = c!"create table" ∧ k2.map small = c!" " :=
    List.map_eq_append_iff.1 (hk.trans (show c!"create table " = c!"create table" ++ c!" " from by decide))
  obtain ⟨kc, ky, rfl, hkc, hky⟩ : ∃ kc ky, kw' = kc ++ ky ∧ kc.map small = c!")" ∧ ky.map small = c!" key" :=
    List.map_eq_append_iff.1 (hkw'.trans (show c!") key" = c!")" ++ c!" key" from by decide))
  obtain rfl : kc = [')'] := by
    cases kc with
    | nil => simp at hkc
    | cons c t =>
      simp only [List.map_cons, List.cons.injEq, List.map_eq_nil_iff] at hkc
      rw [small_close.1 hkc.1, hkc.2]
  obtain ⟨ws, eg, hws⟩ := rstrip_split g
  -- the clause, without white space at its end
  let z : Str := w1 ++ (kw ++ (a ++ '(' :: (m ++ ([')'] ++ ky ++ (gap ++ '(' :: rstrip g)))))
  have hz : z <+: tail := ⟨ws ++ ')' :: rest, by
    rw [etail]
    conv => rhs; rw [eg]
    simp [z]⟩
  obtain ⟨init, l, b, e, hbw, hext⟩ := fieldList_extend hb
  have hinit : fs.map Field.text = init ∧ last.text = l := by
    rw [List.map_append, List.map_cons, List.map_nil] at e
    have := List.append_inj' e rfl
    simpa using this
  obtain ⟨rfl, rfl⟩ := hinit
  have hl := map_ub_list (hext (')' :: z) ws hws)
  let x : Str := (last.text ++ b ++ ')' :: z).map ub
  have hlist : (fs.map Field.text ++ [last.text ++ b ++ ')' :: z]).map (·.map ub) = fs.map (fun f => f.text.map ub) ++ [x] := by simp [x]
  rw [hlist] at hl
  have hlf := field_flat (hf last (by simp))
  have hfs : ∀ f ∈ fs.map (fun f => f.text.map ub), Flat f ∧ Trim f ∧ f ≠ [] := by
    intro f hf'
    obtain ⟨f, h, rfl⟩ := List.mem_map.1 hf'
    exact field_flat (hf f (by simp [h]))
  let P : Str := last.text.map ub ++ (b ++ ')' :: (w1.map ub ++ (kw.map ub ++ (a.map ub ++ ('(' :: m.map ub ++ ')' :: (ky.map ub ++ gap.map ub))))))
  have ex : x = P ++ '(' :: (rstrip g).map ub := by
    simp only [x, P, z, List.map_append, List.map_cons, map_ub_space hbw]
    simp [ub]
  have hP : Flat P := by
    have pl : ∀ {s : Str}, '(' ∉ s → ',' ∉ s → Flat (s.map ub) := fun h1 h2 => enclosed_flat (.plain h1 h2)
    have nky : ∀ {c : Char}, small c = c → c ∉ c!" key" → c ∉ ky := fun h1 h2 h => h2 (by rw [← hky, ← h1]; exact List.mem_map_of_mem h)
    refine hlf.1.append ((flat_space hbw).append (.char (by decide) (by decide) ?_))
    refine (pl (out (by decide)).1 (out (by decide)).1).append ((pl (nkw (by decide) (by decide)) (nkw (by decide) (by decide))).append ?_)
    refine (pl (out (by decide)).2.1 (out (by decide)).2.1).append ?_
    refine Flat.paren (ub_not_mem (by decide) (by decide) (by decide) (inn (by decide)).1) ?_
    exact (pl (nky (by decide) (by decide)) (nky (by decide) (by decide))).append (pl (out (by decide)).2.2 (out (by decide)).2.2)
  have hgr : ')' ∉ (rstrip g).map ub := by
    apply ub_not_mem (by decide) (by decide) (by decide)
    intro h
    exact (inn (c := ')') (by decide)).2.1 ((rstrip_prefix g).subset h)
  have hxt : Trim x := by
    constructor
    · obtain ⟨c, t, e⟩ := List.exists_cons_of_ne_nil hlf.2.2
      intro y hy
      rw [ex] at hy
      simp only [P, e, List.cons_append, List.head?_cons, Option.some.injEq] at hy
      exact hlf.2.1.1 y (by rw [e]; simpa using hy)
    · intro y hy
      rw [ex] at hy
      rcases List.eq_nil_or_concat ((rstrip g).map ub) with h | ⟨t, c, h⟩
      · rw [h, List.getLast?_append] at hy
        simp at hy
        subst hy; decide
      · have : ((rstrip g).map ub).getLast? = some y := by
          rw [h, List.concat_eq_append] at hy ⊢
          rw [show P ++ '(' :: (t ++ [c]) = (P ++ '(' :: t) ++ [c] from by simp] at hy
          rw [List.getLast?_append, List.getLast?_singleton, Option.some_or] at hy ⊢
          exact hy
        rw [List.getLast?_map, Option.map_eq_some_iff] at this
        obtain ⟨u, hu, rfl⟩ := this
        rw [isSpace_ub]
        exact rstrip_last hu
  have hraw := rawFieldsGo_open_last (fieldList_strip hl (by
    intro f hf'
    rcases List.mem_append.1 hf' with h | h
    · exact (hfs f h).2
    · simp only [List.mem_singleton] at h
      subst h
      exact ⟨hxt, by rw [ex]; simp⟩)) hfs hxt ex hP hgr
  have hr : List.Forall₂ Reads (fs.map (fun f => f.text.map ub) ++ [x]) (fs ++ [last]) := by
    refine List.rel_append ?_ (.cons (reads_last (hf last (by simp)) hlast hbw hz) .nil)
    rw [List.forall₂_map_left_iff]
    have hf' : ∀ f ∈ fs, FieldOk f := fun f h => hf f (by simp [h])
    clear hb hl hfs hraw hty hn hf hlist e hext
    induction fs with
    | nil => exact .nil
    | cons f fs ih => exact .cons (reads_field (hf' f (by simp))) (ih (fun g hg => hf' g (by simp [hg])))
  have estmt : k1 ++ k2 ++ path ++ w ++ '(' :: body ++ ')' :: tail = k1 ++ k2 ++ path ++ w ++ '(' :: (body ++ ')' :: z ++ ws) ++ ')' :: rest := by
    rw [etail]
    conv => lhs; rw [eg]
    simp [z]
  have hhash : hasSub c!"partition by hash" (lower (k1 ++ k2 ++ path ++ w ++ '(' :: body ++ ')' :: tail)) = true :=
    has_keyword (a := k1 ++ k2 ++ path ++ w ++ '(' :: body ++ ')' :: w1) (kw := kw)
      (b := a ++ '(' :: (m ++ ([')'] ++ ky ++ (gap ++ '(' :: (g ++ ')' :: rest))))) (by rw [etail]; simp) (by rw [hkw] <;> exact List.infix_refl _)
  have h := parse_fields (schema := schema) (db := db) (.create hk) hp hw (inn (by decide)).2.2 hraw hr hty hn (estmt ▸ hdb)
  rw [← estmt, hhash, if_pos rfl] at h
  rw [h]
  congr 2
  have es : (k1 ++ k2 ++ path ++ w ++ '(' :: body ++ ')' :: tail).map ub = k1 ++ (((k2 ++ path ++ w ++ '(' :: body ++ ')' :: w1).map ub) ++ (kw ++ (a.map ub ++ '(' :: (m ++ ((')' :: ky) ++
      (gap.map ub ++ '(' :: (g.map ub ++ ')' :: rest.map ub))))))) := by
    rw [etail]
    simp only [List.map_append, List.map_cons, keyword_ub hk1 (by decide), keyword_ub hkw (by decide), keyword_ub hky (by decide), intValue_ub hm]
    simp [ub]
  have nm : ∀ {c : Char} {s : Str}, c ∈ c!"()\n" → c ∉ s → c ∉ s.map ub := by
    intro c s hc h
    refine ub_not_mem ?_ ?_ ?_ h <;> (rintro rfl; revert hc; decide)
  have hsearch := search_partition (k := k1) (x := (k2 ++ path ++ w ++ '(' :: body ++ ')' :: w1).map ub) (kw := kw) (a := a.map ub) (n := m) (kw' := ')' :: ky)
    (gap := gap.map ub) (f := g.map ub) (rest := rest.map ub) hk1 hkw hkw' (by
      rw [etail] at hline
      have h1 : '\n' ∉ (k2 ++ path ++ w ++ '(' :: body ++ ')' :: w1) ++ a ++ m ++ gap ++ g := by
        simp only [List.mem_append, List.mem_cons, not_or] at hline ⊢
        tauto
      have := nm (by decide) h1
      simp only [List.map_append, intValue_ub hm] at this ⊢
      exact this) ⟨nm (by decide) (out (by decide)).2.1, nm (by decide) (out (by decide)).2.1⟩ ⟨(inn (by decide)).1, (inn (by decide)).1⟩
      ⟨nm (by decide) (out (by decide)).2.2, nm (by decide) (out (by decide)).2.2⟩ ⟨nm (by decide) (inn (by decide)).2.1, nm (by decide) (inn (by decide)).2.1⟩
      ⟨nm (by decide) (inn (by decide)).2.2, nm (by decide) (inn (by decide)).2.2⟩ (by
      have := (lacks_ub (s := ')' :: rest) (w := c!") key") (by decide)).2 l1
      simpa [ub] using this) (by
      have := (lacks_ub (w := c!"partition by hash") (by decide)).2 l2
      rw [List.map_tail] at this
      simp only [List.map_append, List.map_cons, keyword_ub hkw (by decide), keyword_ub hky (by decide), intValue_ub hm] at this
      simpa [ub] using this)
  unfold addHashKey
  rw [es, hsearch]
  simp only [(pyInt_value m number).2 hm, cleanNames_columns (columns_ub hg)]
  rfl

end Verif
