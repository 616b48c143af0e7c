import Verif.Lemmas.ReadAlter
import Verif.Props.CreateTable
/-
Reading the CREATE TABLE statements `write_tql` produces.
-/

namespace Verif
open Spec

/-! ## The statement -/

theorem joinS_head (sep : Str) (c : Char) (f : Str) : ∀ (fs : List Str), joinS sep ((c :: f) :: fs) = c :: joinS sep (f :: fs)
  | [] => rfl
  | g :: fs => by simp [joinS]

theorem joinS_fields : ∀ (fs : List Str) (x last : Str),
    joinS [' '] (x :: (fs.map (fun f => ',' :: f) ++ [last])) = joinS c!" ," (x :: fs) ++ ' ' :: last
  | [], x, last => by simp [joinS]
  | f :: fs, x, last => by
    have ih := joinS_fields fs (',' :: f) last
    rw [joinS_head c!" ,"] at ih
    simp only [List.map_cons, List.cons_append, joinS] at ih ⊢
    rw [ih]
    simp

theorem joinS_last (sep : Str) (x e : Str) : ∀ (fs : List Str), joinS sep (fs ++ [x]) ++ e = joinS sep (fs ++ [x ++ e])
  | [] => by simp [joinS]
  | [f] => by simp [joinS]
  | f :: g :: fs => by
    have ih := joinS_last sep x e (g :: fs)
    simp only [List.cons_append, joinS] at ih ⊢
    rw [← ih]
    simp

theorem of_mem_joinS {sep : Str} {c : Char} : ∀ {ls : List Str}, c ∈ joinS sep ls → c ∈ sep ∨ ∃ l ∈ ls, c ∈ l
  | [], h => by simp [joinS] at h
  | [l], h => .inr ⟨l, by simp, h⟩
  | l :: m :: ls, h => by
    simp only [joinS, List.mem_append] at h
    rcases h with (h | h) | h
    · exact .inr ⟨l, by simp, h⟩
    · exact .inl h
    · rcases of_mem_joinS h with h | ⟨x, hx, h⟩
      · exact .inl h
      · exact .inr ⟨x, List.mem_cons_of_mem _ hx, h⟩

/-- The declarations in the order they are written. -/
def fieldsOf (t : Table) : List Str := t.iter.map colPrint ++ (if t.pk = [] then [] else [pkPrint t.pk])

/-- What stands between the last declaration and the last parenthesis. -/
def restOf : Option ShardKey → Str
  | none => []
  | some k => c!" ) PARTITION BY HASH(" ++ (countPrint k.number ++ (c!") KEY(" ++ listToString k.keys true))

theorem colLines_snd : ∀ (cs : List Column), (colLines false cs).map (·.2) = cs.map (fun c => ',' :: colPrint c)
  | [] => rfl
  | c :: cs => by simp [colLines, colLines_snd cs]

theorem createBlock_stmt {t : Table} (h : t.cols ≠ []) : (createBlock t).stmt = createHead t ++ ' ' :: (joinS c!" ," (fieldsOf t) ++ ' ' :: createLast t.shard) := by
  have hi : t.iter ≠ [] := by simpa [Table.iter, Dict.vals] using h
  unfold fieldsOf
  obtain ⟨c, cs, e⟩ := List.exists_cons_of_ne_nil hi
  rw [e]
  have e2 : (colLines true (c :: cs) ++ pkLines t.pk).map (·.2) =
      colPrint c :: (cs.map colPrint ++ (if t.pk = [] then [] else [pkPrint t.pk])).map (fun f => ',' :: f) := by
    simp only [colLines, List.map_append, List.map_cons, colLines_snd, List.cons_append, List.map_map, pkLines]
    congr 2
    split <;> simp
  simp only [Block.stmt, createBlock, e, List.map_cons]
  rw [e2, List.cons_append, List.cons_append, joinS, joinS_fields]
  · simp
  · simp

theorem createBlock_empty {t : Table} (h : t.cols = []) (hp : t.pk = []) : (createBlock t).stmt = createHead t ++ ' ' :: createLast t.shard := by
  have hi : t.iter = [] := by simp [Table.iter, Dict.vals, h]
  simp [Block.stmt, createBlock, hi, hp, colLines, pkLines, joinS]

theorem createHead_eq (t : Table) : createHead t = c!"CREATE TABLE " ++ qpath t.schema t.name ++ [' '] ++ ['('] := by
  simp [createHead, quoteLine, qpath, qname]

/-- The statement around its parentheses. -/
theorem createBlock_eq {t : Table} (hr : ReadableTable t) (h : t.cols ≠ []) : ∃ b : Str, (∀ c ∈ b, isSpace c = true) ∧
    (createBlock t).stmt = c!"CREATE TABLE " ++ qpath t.schema t.name ++ [' '] ++ '(' :: ([' '] ++ (joinS c!" ," (fieldsOf t) ++ restOf t.shard) ++ b) ++ ')' :: [] := by
  rw [createBlock_stmt h, createHead_eq]
  cases e : t.shard with
  | none => exact ⟨[' '], by decide, by simp [createLast, restOf]⟩
  | some k =>
    refine ⟨[], by simp, ?_⟩
    simp only [createLast, restOf]
    rw [quoteLine_names (hr.shard k e).keys]
    simp

/-! ## The fields -/

theorem type_flat {ty : Str} (h : ReadableType ty) : Flat ty := by
  rcases h with h | ⟨ds, hd, rfl⟩
  · have : ∀ ty ∈ [c!"VARCHAR", c!"DOUBLE", c!"FLOAT", c!"BOOL", c!"INT", c!"BIGINT", c!"DATE", c!"DATETIME", c!"TIMESTAMP", c!"TIME", c!"UNKNOWN"],
        ∀ c ∈ ty, c ≠ '(' ∧ c ≠ ',' := by decide
    exact flat_plain (this ty h)
  · have h1 : Flat c!"VARCHAR" := flat_plain (by decide)
    have h2 : Flat ('(' :: ds ++ ')' :: []) := .paren (fun hc => by have := hd _ hc; revert this; decide) .nil
    have := h1.append h2
    simpa using this

theorem name_flat {n : Str} (h : Enclosed n) : Flat n := by
  have key : ∀ {s : Str}, '(' ∉ s → ',' ∉ s → Flat s := fun h1 h2 => flat_plain (fun c hc => ⟨by rintro rfl; exact h1 hc, by rintro rfl; exact h2 hc⟩)
  induction h with
  | plain h1 h2 => exact key h1 h2
  | paren h1 h2 h3 _ ih => exact (key h1 h2).append (.paren h3 ih)

theorem col_flat {c : Column} (h : ReadableColumn c.name ∧ ReadableType c.type) : Flat (colPrint c) :=
  .char (by decide) (by decide) ((name_flat h.1.enclosed).append (.char (by decide) (by decide) (.char (by decide) (by decide) (type_flat h.2))))

theorem pkPrint_eq {pk : List Str} (h : pk ≠ []) : pkPrint pk = c!"CONSTRAINT PRIMARY KEY " ++ '(' :: (listToString pk true ++ [')']) := by
  unfold pkPrint
  rw [quoteLine_names h]
  simp

theorem pk_flat {pk : List Str} (hne : pk ≠ []) (h : ∀ n ∈ pk, ReadablePrimary n) : Flat (pkPrint pk) := by
  have hp : ')' ∉ listToString pk true := by
    intro hc
    rcases mem_names hc with hc | ⟨n, hn, hc⟩
    · revert hc; decide
    · exact (h n hn).chars _ (by decide) hc
  rw [pkPrint_eq hne]
  exact Flat.append (flat_plain (by decide)) (.paren hp .nil)

theorem field_trim {t : Table} (hr : ReadableTable t) : ∀ f ∈ fieldsOf t, Flat f ∧ Trim f ∧ f ≠ [] := by
  intro f hf
  simp only [fieldsOf, List.mem_append, List.mem_map, Table.iter, Dict.vals] at hf
  rcases hf with ⟨c, ⟨p, hp, rfl⟩, rfl⟩ | hf
  · have hc := hr.cols p hp
    obtain ⟨_, x, y, e, hy⟩ := phrase_col (c := p.2) ⟨hc.1.inline, hc.2⟩
    refine ⟨col_flat hc, ⟨fun c h => ?_, fun c h => ?_⟩, by simp [colPrint]⟩
    · simp only [colPrint, List.head?_cons, Option.some.injEq] at h
      subst h; decide
    · rw [e, List.getLast?_append, List.getLast?_singleton, Option.some_or, Option.some.injEq] at h
      subst h; exact hy
  · split at hf
    · simp at hf
    · rename_i hne
      simp only [List.mem_singleton] at hf
      subst hf
      obtain ⟨_, x, e⟩ := pk_ok hne (fun n hn => (hr.pk n hn).inline)
      refine ⟨pk_flat hne hr.pk, ⟨fun c h => ?_, fun c h => ?_⟩, by rw [e]; simp⟩
      · rw [pkPrint_eq hne] at h
        simp only [List.cons_append, List.head?_cons, Option.some.injEq] at h
        subst h; decide
      · rw [e, List.getLast?_append, List.getLast?_singleton, Option.some_or, Option.some.injEq] at h
        subst h; decide

/-- All fields but the last end at a comma. -/
theorem rawFieldsGo_init {x : Str} : ∀ {fs : List Str}, (∀ f ∈ fs, Flat f ∧ Trim f ∧ f ≠ []) →
    rawFieldsGo false [] (joinS c!" ," (fs ++ [x])) = fs ++ rawFieldsGo false [] x
  | [], _ => by simp [joinS]
  | f :: fs, h => by
    obtain ⟨h1, h2, _⟩ := h f (by simp)
    have ih := rawFieldsGo_init (x := x) (fs := fs) (fun g hg => h g (by simp [hg]))
    obtain ⟨y, ys, e⟩ := List.exists_cons_of_ne_nil (l := fs ++ [x]) (by simp)
    rw [e] at ih
    have e2 : joinS c!" ," (f :: fs ++ [x]) = (f ++ [' ']) ++ ',' :: joinS c!" ," (y :: ys) := by
      rw [List.cons_append, e]; simp [joinS]
    rw [e2, rawFieldsGo_flat (h1.append (flat_space (by decide))), List.nil_append, rawFieldsGo, if_neg (by decide), if_pos rfl, ih]
    have := strip_pads (a := []) (f := f) (b := [' ']) (by simp) (by decide) h2
    rw [List.nil_append] at this
    rw [this]
    rfl

theorem rawFieldsGo_tail : ∀ {a cur : Str}, ')' ∉ a → rawFieldsGo true cur a = if cur ++ a ≠ [] then [strip (cur ++ a)] else []
  | [], cur, _ => by simp [rawFieldsGo]
  | x :: a, cur, h => by
    simp only [List.mem_cons, not_or] at h
    rw [rawFieldsGo, show decide (x ≠ ')') = true from decide_eq_true (Ne.symm h.1), rawFieldsGo_tail h.2]
    simp

theorem restOf_last {k : ShardKey} (h : ReadableShard k) : ∃ x, restOf (some k) = x ++ ['"'] := by
  obtain ⟨n, ns, e⟩ := List.exists_cons_of_ne_nil h.keys
  have : ∀ (ns : List Str) (n : Str), ∃ x, '"' :: (n ++ '"' :: moreNames ns) = x ++ ['"'] := by
    intro ns
    induction ns with
    | nil => intro n; exact ⟨'"' :: n, by simp [moreNames]⟩
    | cons m ns ih =>
      intro n
      obtain ⟨x, hx⟩ := ih m
      exact ⟨'"' :: (n ++ '"' :: c!", " ++ x), by simp [moreNames, hx]⟩
  obtain ⟨x, hx⟩ := this ns n
  exact ⟨c!" ) PARTITION BY HASH(" ++ (countPrint k.number ++ (c!") KEY(" ++ x)), by simp [restOf, e, listToString_cons, hx]⟩

theorem countPrint_chars {k : ShardKey} (h : ReadableShard k) : ∀ c ∈ countPrint k.number, c = '-' ∨ digit c = true := by
  obtain ⟨n, e, _⟩ := countPrint_eq h
  rw [e]
  exact (intToStr_phrase n).2

theorem count_not_mem {k : ShardKey} (h : ReadableShard k) {c : Char} (h1 : c ≠ '-') (h2 : digit c = false) : c ∉ countPrint k.number := by
  intro hc
  rcases countPrint_chars h c hc with e | e
  · exact h1 e
  · rw [h2] at e; simp at e

/-- The last field. -/
theorem rawFieldsGo_last {f : Str} {sh : Option ShardKey} (hf : Flat f ∧ Trim f ∧ f ≠ []) (hk : ∀ k, sh = some k → ReadableShard k) :
    Trim (f ++ restOf sh) ∧ rawFieldsGo false [] (f ++ restOf sh) = [f ++ restOf sh] := by
  cases sh with
  | none =>
    simp only [restOf, List.append_nil]
    refine ⟨hf.2.1, ?_⟩
    have := rawFieldsGo_flat hf.1 (cur := []) (t := [])
    rw [List.append_nil, List.nil_append] at this
    rw [this, rawFieldsGo, if_pos hf.2.2, hf.2.1.strip]
  | some k =>
    have h := hk k rfl
    obtain ⟨x, hx⟩ := restOf_last h
    have ht : Trim (f ++ restOf (some k)) := by
      obtain ⟨c, f', rfl⟩ := List.exists_cons_of_ne_nil hf.2.2
      refine ⟨fun y hy => hf.2.1.1 y (by simpa using hy), fun y hy => ?_⟩
      rw [hx, ← List.append_assoc, List.getLast?_append, List.getLast?_singleton, Option.some_or, Option.some.injEq] at hy
      subst hy; decide
    refine ⟨ht, ?_⟩
    have h1 : Flat (c!" ) PARTITION BY HASH" ++ ('(' :: countPrint k.number ++ ')' :: c!" KEY")) :=
      Flat.append (flat_plain (by decide)) (.paren (count_not_mem h (by decide) (by decide)) (flat_plain (by decide)))
    have e : f ++ restOf (some k) = (f ++ (c!" ) PARTITION BY HASH" ++ ('(' :: countPrint k.number ++ ')' :: c!" KEY"))) ++ '(' :: listToString k.keys true := by
      simp [restOf]
    have hs := ht.strip
    rw [e] at hs ⊢
    rw [rawFieldsGo_flat (hf.1.append h1), List.nil_append, rawFieldsGo, if_pos rfl, rawFieldsGo_tail (names_newline h.names).2.2]
    rw [if_pos (by simp)]
    simp only [List.append_assoc, List.cons_append, List.nil_append] at hs ⊢
    rw [hs]

/-- The raw fields of a CREATE TABLE. -/
theorem rawFields_create {t : Table} (hs : ReadableName t.schema) (hr : ReadableTable t) (h : t.cols ≠ []) {fs : List Str} {f : Str} (hf : fieldsOf t = fs ++ [f]) :
    rawFields (createBlock t).stmt = fs ++ [f ++ restOf t.shard] := by
  have hall := field_trim hr
  rw [hf] at hall
  obtain ⟨b, hb, e⟩ := createBlock_eq hr h
  obtain ⟨l1, l2⟩ := rawFieldsGo_last (hall f (by simp)) hr.shard
  have hp : '(' ∉ c!"CREATE TABLE " ++ qpath t.schema t.name ++ [' '] := by
    simp only [qpath, qname, List.mem_append, List.mem_cons, List.not_mem_nil, or_false, not_or]
    refine ⟨⟨by decide, ⟨by decide, name_not_mem hs (by decide), by decide⟩, by decide, by decide, name_not_mem hr.name (by decide), by decide⟩, by decide⟩
  have htrim : Trim (joinS c!" ," (fs ++ [f ++ restOf t.shard])) := by
    have hfs : ∀ g ∈ fs, Trim g ∧ g ≠ [] := fun g hg => (hall g (by simp [hg])).2
    have hne : f ++ restOf t.shard ≠ [] := by simp [(hall f (by simp)).2.2]
    clear e hp hf hall l2
    induction fs with
    | nil => simpa [joinS] using l1
    | cons g fs ih =>
      have ih := ih (fun x hx => hfs x (by simp [hx]))
      obtain ⟨y, ys, ey⟩ := List.exists_cons_of_ne_nil (l := fs ++ [f ++ restOf t.shard]) (by simp)
      obtain ⟨c, g', eg⟩ := List.exists_cons_of_ne_nil (hfs g (by simp)).2
      have hjne : joinS c!" ," (fs ++ [f ++ restOf t.shard]) ≠ [] := by
        have := joinS_last c!" ," [] (f ++ restOf t.shard) fs
        rw [List.nil_append] at this
        rw [← this]
        simp [hne]
      rw [List.cons_append, ey, joinS]
      · rw [ey] at ih hjne
        refine ⟨fun x hx => (hfs g (by simp)).1.1 x (by rw [eg] at hx ⊢; simpa using hx), fun x hx => ih.2 x ?_⟩
        rwa [List.getLast?_append_of_ne_nil _ hjne] at hx
      · simp
  rw [e, rawFields_body hp (by simp), hf, joinS_last, strip_pads (by decide) hb htrim, rawFieldsGo_init (fun g hg => hall g (by simp [hg])), l2]

/-! ## Columns -/

/-- The types of the list of `ReadableType`. -/
def wordTypes : List Str := [c!"VARCHAR", c!"DOUBLE", c!"FLOAT", c!"BOOL", c!"INT", c!"BIGINT", c!"DATE", c!"DATETIME", c!"TIMESTAMP", c!"TIME", c!"UNKNOWN"]

/-- A phrase that cannot occur in the declarations of columns. -/
structure Foreign (w : Str) : Prop where
  blank : ' ' ∈ w
  signs : ∀ c ∈ c!"\"(),", c ∉ w
  types : ∀ ty ∈ wordTypes, hasSub w (lower (' ' :: (ty ++ [' ']))) = false

theorem Foreign.sign {w : Str} (h : Foreign w) {c : Char} (hc : c ∈ c!"\"(),") : small c ∉ w := by
  have : ∀ c ∈ c!"\"(),", small c = c := by decide
  rw [this c hc]
  exact h.signs c hc

theorem Foreign.type {w ty : Str} (h : Foreign w) (hty : ReadableType ty) : Lacks w (' ' :: (ty ++ [' '])) := by
  rcases hty with hty | ⟨ds, hd, rfl⟩
  · exact lacks_lit (h.types ty hty)
  · have h1 := lacks_lit (h.types c!"VARCHAR" (by decide))
    have e : ' ' :: (c!"VARCHAR(" ++ ds ++ c!")" ++ [' ']) = c!" VARCHAR" ++ '(' :: (ds ++ ')' :: [' ']) := by simp
    rw [e]
    refine without_sep (h.sign (by decide)) (lacks_infix h1 ⟨[], [' '], rfl⟩) (without_sep (h.sign (by decide)) ?_ (lacks_infix h1 ⟨c!" VARCHAR", [], rfl⟩))
    exact without_word h.blank (fun hc => by have := hd _ hc; revert this; decide)

theorem Foreign.col {w : Str} (h : Foreign w) {c : Column} (hn : Lacks w c.name) (hc : ReadableType c.type) : Lacks w (colPrint c ++ [' ']) := by
  have := quoteLine_without (t := []) (l := [(c.name, ' ' :: (c.type ++ [' ']))]) (h.signs _ (by decide)) (without_nil (by
    intro e; have := h.blank; rw [e] at this; simp at this)) (by simpa using ⟨hn, h.type hc⟩)
  simpa [quoteLine, colPrint] using this

/-- Texts that occur in the last field after the declaration. -/
theorem Foreign.rest {w : Str} (h : Foreign w) (h1 : hasSub w (lower c!" PARTITION BY HASH") = false) (h2 : hasSub w (lower c!" KEY") = false)
    (h3 : hasSub w (lower c!", ") = false) {a : Str} (ha : Lacks w (a ++ [' '])) {sh : Option ShardKey} (hk : ∀ k, sh = some k → ReadableShard k)
    (hkn : ∀ k, sh = some k → ∀ n ∈ k.keys, Lacks w n) : Lacks w (a ++ restOf sh) := by
  cases sh with
  | none => simp only [restOf, List.append_nil]; exact lacks_infix ha ⟨[], [' '], by simp⟩
  | some k =>
    have hr := hk k rfl
    have e : a ++ restOf (some k) = (a ++ [' ']) ++ ')' :: (c!" PARTITION BY HASH" ++ '(' :: (countPrint k.number ++ ')' :: (c!" KEY" ++ '(' :: listToString k.keys true))) := by
      simp [restOf]
    rw [e]
    refine without_sep (h.sign (by decide)) ha (without_sep (h.sign (by decide)) (lacks_lit h1) (without_sep (h.sign (by decide)) ?_ (without_sep (h.sign (by decide)) (lacks_lit h2) ?_)))
    · exact without_word h.blank (count_not_mem hr (by decide) (by decide))
    · refine without_names (fun e => by have := h.blank; rw [e] at this; simp at this) (h.signs _ (by decide)) ?_ (hkn k rfl)
      have := (hasSub_false_iff).1 h3
      exact this

theorem foreign_key : Foreign c!"key " := ⟨by decide, by decide, by decide⟩

theorem typeAt_readable {ty : Str} (h : ReadableType ty) (sh : Option ShardKey) : ∃ u, TypeAt (ty ++ restOf sh) u ∧ convertType u = .ok (normalType ty) := by
  rcases h with h | ⟨ds, hd, rfl⟩
  · have hw : ∀ ty ∈ wordTypes, convertType ty = .ok (normalType ty) ∧ convertType (ty ++ c!" )") = .ok (normalType ty) ∧ ')' ∉ ty ∧ ' ' ∉ ty ∧ ',' ∉ ty := by
      decide +kernel
    obtain ⟨h1, h2, h3, h4, h5⟩ := hw ty h
    cases sh with
    | none => exact ⟨ty, by simpa [restOf] using TypeAt.whole h3 h4 h5, h1⟩
    | some k =>
      refine ⟨ty ++ c!" )", ?_, h2⟩
      have := TypeAt.paren (a := ty ++ [' ']) (b := c!" PARTITION BY HASH(" ++ (countPrint k.number ++ (c!") KEY(" ++ listToString k.keys true))) (by
        simp only [List.mem_append, List.mem_singleton, not_or]
        exact ⟨h3, by decide⟩)
      simpa [restOf] using this
  · have hp : ')' ∉ ds := fun hc => by have := hd _ hc; revert this; decide
    refine ⟨c!"VARCHAR(" ++ ds ++ c!")", ?_, ?_⟩
    · have := TypeAt.paren (a := c!"VARCHAR(" ++ ds) (b := restOf sh) (by
        simp only [List.mem_append, not_or]
        exact ⟨by decide, hp⟩)
      simpa using this
    · have hl : Props.letterless ds = true := by
        unfold Props.letterless
        rw [List.all_eq_true]
        intro c hc
        have := hd c hc
        have key : ∀ c ∈ c!"0123456789", (!isLowerA c && !isUpperA c) = true := by decide
        exact key c this
      have hn : normalType (c!"VARCHAR(" ++ ds ++ c!")") = c!"VARCHAR(0)" := by
        unfold normalType
        rw [if_neg (by simp), if_neg (by simp), if_neg (by simp), if_pos ⟨'(' :: (ds ++ [')']), by simp⟩]
      rw [hn]
      have := (Props.C62_sized_types (w := c!"VARCHAR") (ty := c!"VARCHAR(0)") (by decide) ds hl hp).2
      simpa using this

theorem read_col {c : Column} (h : ReadableColumn c.name ∧ ReadableType c.type) {sh : Option ShardKey} (hk : ∀ k, sh = some k → ReadableShard k) :
    hasSub c!"key " (lower (colPrint c ++ restOf sh)) = false ∧ fieldColumn (colPrint c ++ restOf sh) = .ok { c with type := normalType c.type } := by
  refine ⟨hasSub_without (foreign_key.rest rfl rfl rfl (foreign_key.col (h.1.phrases _ (by decide)) h.2) hk (fun k e => (hk k e).noKey)), ?_⟩
  obtain ⟨u, hu, hc⟩ := typeAt_readable h.2 sh
  have := fieldColumn_quoted (q := '"') (.inl rfl) (inline_not_mem h.1.inline (by decide)) hu
  rw [hc] at this
  have e : '"' :: c.name ++ '"' :: ' ' :: (c.type ++ restOf sh) = colPrint c ++ restOf sh := by simp [colPrint]
  rw [e] at this
  rw [this]
  exact mkColumn_converted hc

/-- The columns read back. -/
def readCols (t : Table) : List Column := t.iter.map (fun c => { c with type := normalType c.type })

theorem read_cols {cs : List Column} (h : ∀ c ∈ cs, ReadableColumn c.name ∧ ReadableType c.type) :
    List.Forall₂ (fun f c => hasSub c!"key " (lower f) = false ∧ fieldColumn f = .ok c) (cs.map colPrint) (cs.map (fun c => { c with type := normalType c.type })) := by
  induction cs with
  | nil => exact .nil
  | cons c cs ih =>
    have := read_col (h c (by simp)) (sh := none) (by simp)
    simp only [restOf, List.append_nil] at this
    exact .cons this (ih (fun x hx => h x (by simp [hx])))

/-- What the loop over the fields gives. -/
theorem fold_fields {t : Table} (hr : ReadableTable t) (h : t.cols ≠ []) : ∃ fs f, fieldsOf t = fs ++ [f] ∧
    ∀ u : Table, u.pk = [] → (fs ++ [f ++ restOf t.shard]).foldlM addField (u, []) = .ok ({ u with pk := t.pk }, readCols t) := by
  have hi : t.iter ≠ [] := by simpa [Table.iter, Dict.vals] using h
  have hc : ∀ c ∈ t.iter, ReadableColumn c.name ∧ ReadableType c.type := by
    intro c hc
    simp only [Table.iter, Dict.vals, List.mem_map] at hc
    obtain ⟨p, hp, rfl⟩ := hc
    exact hr.cols p hp
  unfold fieldsOf readCols
  by_cases hp : t.pk = []
  · obtain ⟨cs, c, e⟩ := (List.eq_nil_or_concat t.iter).resolve_left hi
    rw [List.concat_eq_append] at e
    rw [e] at hc ⊢
    refine ⟨cs.map colPrint, colPrint c, by simp [hp], ?_⟩
    intro u hu
    have := foldlM_columns (t := u) (acc := []) (List.rel_append (read_cols (cs := cs) (fun x hx => hc x (by simp [hx]))) (.cons (read_col (hc c (by simp)) hr.shard) .nil))
    rw [this, hp, List.nil_append]
    cases u
    simp only at hu
    subst hu
    simp
  · refine ⟨t.iter.map colPrint, pkPrint t.pk, by simp [hp], ?_⟩
    intro u hu
    rw [List.foldlM_append, foldlM_columns (read_cols hc), List.nil_append]
    have e : pkPrint t.pk ++ restOf t.shard = c!"CONSTRAINT PRIMARY KEY " ++ '(' :: (listToString t.pk true ++ ')' :: restOf t.shard) := by
      rw [pkPrint_eq hp]; simp
    have hk : hasSub c!"key " (lower (pkPrint t.pk ++ restOf t.shard)) = true := hasSub_lit e (by decide)
    have hpr : hasSub c!"primary" (lower (pkPrint t.pk ++ restOf t.shard)) = true := hasSub_lit e (by decide)
    have hf : addField (u, t.iter.map (fun c => { c with type := normalType c.type })) (pkPrint t.pk ++ restOf t.shard) =
        .ok ({ u with pk := t.pk }, t.iter.map (fun c => { c with type := normalType c.type })) := by
      unfold addField
      simp only [hk, hpr, if_true]
      rw [e, fieldKeys_list hp hr.pk _ _ (by decide)]
    simp only [bind, Except.bind, List.foldlM_cons, List.foldlM_nil, hf, pure, Except.pure]

/-! ## Shard keys -/

theorem suffix_paren {a b z : Str} (ha : '(' ∉ a) (hb : '(' ∉ b) (h : '(' :: z <:+ a ++ '(' :: b) : z = b := by
  obtain ⟨u, e⟩ := h
  rcases List.append_eq_append_iff.1 e with ⟨x, h1, h2⟩ | ⟨x, h1, h2⟩
  · cases x with
    | nil => simpa using h2
    | cons y x =>
      simp only [List.cons_append, List.cons.injEq] at h2
      exact absurd (by rw [h1, ← h2.1]; simp) ha
  · cases x with
    | nil => simp only [List.nil_append, List.cons.injEq] at h2; exact h2.2.symm
    | cons y x =>
      simp only [List.cons_append, List.cons.injEq] at h2
      exact absurd (by rw [h2.2]; simp) hb

theorem search_hash {x : Str} {n : Int} {ns : List Str} (hx : '\n' ∉ x) (hn : ∀ m ∈ ns, ReadableName m) (hne : ns ≠ []) :
    reSearch patHash (c!"CREATE TABLE" ++ (x ++ (c!"PARTITION BY HASH" ++ (c!"(" ++ (intToStr n ++ (c!") KEY" ++ (c!"(" ++ (listToString ns true ++ c!")")))))))) =
      some [intToStr n, listToString ns true] := by
  have hN := names_newline hn
  have hI : ∀ c : Char, c ≠ '-' → digit c = false → c ∉ intToStr n := by
    intro c h1 h2 hc
    rcases (intToStr_phrase n).2 c hc with e | e
    · exact h1 e
    · rw [h2] at e; simp at e
  have seg : ∀ {w a : Str}, offName w = true → '"' ∉ w → Lacks w a → hasSub w (lower c!", ") = false → hasSub w (lower c!")") = false → Lacks w (a ++ (listToString ns true ++ c!")")) := by
    intro w a h1 h2 h3 h4 h5
    have := lacks_line (w := w) (t := a) (l := nameSegs ns c!")") h1 h2 h3 (fun p hp => ⟨hn _ (mem_nameSegs hp).1, by
      rcases (mem_nameSegs hp).2 with e | e <;> rw [e]
      · exact lacks_lit h4
      · exact lacks_lit h5⟩)
    rwa [quoteLine_names hne] at this
  have m5 : reMatch (.star true true :: (lit c!")" ++ [])) (listToString ns true ++ c!")") = some [listToString ns true] := by
    have := reMatch_star_last (cap := true) (w := c!")") (a := listToString ns true) (m := c!")") (s := []) (ts := []) (gs := []) hN.1 rfl rfl (by decide)
    simpa [starGroups] using this
  have m4 : reMatch (.star true false :: (lit c!"(" ++ (.star true true :: (lit c!")" ++ [])))) (c!"(" ++ (listToString ns true ++ c!")")) = some [listToString ns true] := by
    have := reMatch_star_last (cap := false) (w := c!"(") (a := []) (m := c!"(") (s := listToString ns true ++ c!")") (by simp) rfl m5 (by
      intro h
      have hm : '(' ∈ lower (listToString ns true ++ c!")") := h.subset (by simp [lower, lowerC, isUpperA])
      have := (mem_lower_special (by decide) (by decide)).1 hm
      simp only [List.mem_append] at this
      rcases this with h | h
      · exact hN.2.1 h
      · revert h; decide)
    simpa [starGroups] using this
  have m3 : reMatch (.star true true :: (lit c!") key" ++ (.star true false :: (lit c!"(" ++ (.star true true :: (lit c!")" ++ []))))))
      (intToStr n ++ (c!") KEY" ++ (c!"(" ++ (listToString ns true ++ c!")")))) = some [intToStr n, listToString ns true] := by
    have := reMatch_star_last (cap := true) (w := c!") key") (a := intToStr n) (m := c!") KEY") (s := c!"(" ++ (listToString ns true ++ c!")")) (hI _ (by decide) (by decide)) rfl m4 (by
      apply not_infix rfl
      have := seg (w := c!") key") (a := c!" KEY(") (by decide) (by decide) (lacks_lit rfl) rfl rfl
      exact this)
    simpa [starGroups] using this
  have m2 : reMatch (.star true false :: (lit c!"(" ++ (.star true true :: (lit c!") key" ++ (.star true false :: (lit c!"(" ++ (.star true true :: (lit c!")" ++ []))))))))
      (c!"(" ++ (intToStr n ++ (c!") KEY" ++ (c!"(" ++ (listToString ns true ++ c!")"))))) = some [intToStr n, listToString ns true] := by
    have := reMatch_star (cap := false) (w := c!"(") (a := []) (m := c!"(") (s := intToStr n ++ (c!") KEY" ++ (c!"(" ++ (listToString ns true ++ c!")")))) (by simp) rfl m3 (by
      intro y hy hp
      obtain ⟨z, rfl⟩ : ∃ z, y = '(' :: z := by
        cases y with
        | nil => simp [lower] at hp
        | cons c z =>
          simp only [lower, List.map_cons, List.map_nil, List.cons_prefix_cons] at hp
          have : lowerC c = '(' := hp.1.symm
          exact ⟨z, by rw [(lowerC_special (by decide) (by decide)).1 this]⟩
      have hz : z = listToString ns true ++ c!")" := by
        apply suffix_paren (a := intToStr n ++ c!") KEY") (b := listToString ns true ++ c!")")
        · simp only [List.mem_append, not_or]; exact ⟨hI _ (by decide) (by decide), by decide⟩
        · simp only [List.mem_append, not_or]; exact ⟨hN.2.1, by decide⟩
        · simpa using hy
      subst hz
      have := reMatch_missing (w := c!") key") (us := (.star true false :: (lit c!"(" ++ (.star true true :: (lit c!")" ++ []))))) [.star true true]
        (s := listToString ns true ++ c!")") (by
          apply not_infix rfl
          exact seg (w := c!") key") (a := []) (by decide) (by decide) (lacks_lit rfl) rfl rfl)
      exact this)
    simpa [starGroups] using this
  have m1 : reMatch (.star true false :: (lit c!"partition by hash" ++ (.star true false :: (lit c!"(" ++ (.star true true :: (lit c!") key" ++ (.star true false :: (lit c!"(" ++ (.star true true :: (lit c!")" ++ []))))))))))
      (x ++ (c!"PARTITION BY HASH" ++ (c!"(" ++ (intToStr n ++ (c!") KEY" ++ (c!"(" ++ (listToString ns true ++ c!")"))))))) = some [intToStr n, listToString ns true] := by
    have := reMatch_star_last (cap := false) (w := c!"partition by hash") (a := x) (m := c!"PARTITION BY HASH")
      (s := c!"(" ++ (intToStr n ++ (c!") KEY" ++ (c!"(" ++ (listToString ns true ++ c!")"))))) hx rfl m2 (by
      apply not_infix rfl
      have h1 : Lacks c!"partition by hash" (c!"ARTITION BY HASH" ++ '(' :: (intToStr n ++ ')' :: c!" KEY(")) :=
        without_sep (by decide) (lacks_lit rfl) (without_sep (by decide) (without_word (by decide) (hI _ (by decide) (by decide))) (lacks_lit rfl))
      have := seg (w := c!"partition by hash") (by decide) (by decide) h1 rfl rfl
      simpa using this)
    simpa [starGroups] using this
  apply reSearch_first
  have := reMatch_lit_eq (w := c!"create table") (m := c!"CREATE TABLE") rfl
    (.star true false :: (lit c!"partition by hash" ++ (.star true false :: (lit c!"(" ++ (.star true true :: (lit c!") key" ++ (.star true false :: (lit c!"(" ++ (.star true true :: (lit c!")" ++ []))))))))))
    (x ++ (c!"PARTITION BY HASH" ++ (c!"(" ++ (intToStr n ++ (c!") KEY" ++ (c!"(" ++ (listToString ns true ++ c!")")))))))
  rw [m1] at this
  simpa [patHash, dots, group] using this

/-! ## The statement as a whole -/

theorem type_not_mem {ty : Str} (h : ReadableType ty) {c : Char} (h1 : ∀ ty ∈ wordTypes, c ∉ ty) (h2 : c ∉ c!"0123456789()") : c ∉ ty := by
  rcases h with h | ⟨ds, hd, rfl⟩
  · exact h1 ty h
  · have := h1 c!"VARCHAR" (by decide)
    intro hc
    simp only [List.mem_append] at hc
    rcases hc with (hc | hc) | hc
    · rw [show c!"VARCHAR(" = c!"VARCHAR" ++ c!"(" from rfl, List.mem_append] at hc
      rcases hc with hc | hc
      · exact this hc
      · simp only [List.mem_singleton] at hc; subst hc; exact h2 (by decide)
    · have := hd c hc
      apply h2
      rw [show c!"0123456789()" = c!"0123456789" ++ c!"()" from rfl, List.mem_append]
      exact .inl this
    · simp only [List.mem_singleton] at hc; subst hc; exact h2 (by decide)

/-- Characters that do not occur in the statement. -/
theorem create_not_mem {t : Table} (hs : ReadableName t.schema) (hr : ReadableTable t) {c : Char} (hc : (isSpace c && c != ' ' || (c!"\"[];").contains c) = true)
    (h1 : ∀ ty ∈ wordTypes, c ∉ ty) (h2 : c ∉ c!"0123456789() ,.\"-CREATE TABLE CONSTRAINT PRIMARY KEY PARTITION BY HASH") : c ∉ (createBlock t).stmt := by
  have lits : ∀ l ∈ [c!"0123456789()", c!"CREATE TABLE ", c!".", c!" (", c!") PARTITION BY HASH(", c!") KEY(", c!", ", c!")", c!"CONSTRAINT PRIMARY KEY (", c!" ", c!" ,", c!"\"", c!"-", c!"0123456789"],
      ∀ x ∈ l, x ∈ c!"0123456789() ,.\"-CREATE TABLE CONSTRAINT PRIMARY KEY PARTITION BY HASH" := by decide
  have lit : ∀ l ∈ [c!"0123456789()", c!"CREATE TABLE ", c!".", c!" (", c!") PARTITION BY HASH(", c!") KEY(", c!", ", c!")", c!"CONSTRAINT PRIMARY KEY (", c!" ", c!" ,", c!"\"", c!"-", c!"0123456789"],
      c ∉ l := fun l hl hc => h2 (lits l hl c hc)
  have quo : ∀ {a : Str} {l : List (Str × Str)}, c ∉ a → (∀ p ∈ l, InlineName p.1 ∧ c ∉ p.2) → c ∉ quoteLine a l := by
    intro a l h0 h h'
    rcases mem_quoteLine h' with h' | rfl | ⟨p, hp, h' | h'⟩
    · exact h0 h'
    · exact lit c!"\"" (by decide) (by simp)
    · exact inline_not_mem (h p hp).1 hc h'
    · exact (h p hp).2 h'
  have segs : ∀ {ns : List Str} {e : Str}, (∀ n ∈ ns, InlineName n) → c ∉ e → ∀ p ∈ nameSegs ns e, InlineName p.1 ∧ c ∉ p.2 := by
    intro ns e hn he p hp
    refine ⟨hn _ (mem_nameSegs hp).1, ?_⟩
    rcases (mem_nameSegs hp).2 with h | h <;> rw [h]
    · exact lit _ (by decide)
    · exact he
  have hhead : c ∉ createHead t := by
    apply quo (lit _ (by decide))
    intro p hp
    simp only [List.mem_cons, List.not_mem_nil, or_false] at hp
    rcases hp with rfl | rfl
    · exact ⟨hs.inline, lit c!"." (by decide)⟩
    · exact ⟨hr.name.inline, lit c!" (" (by decide)⟩
  have hlast : c ∉ createLast t.shard := by
    cases e : t.shard with
    | none => exact lit c!")" (by decide)
    | some k =>
      have hk := hr.shard k e
      apply quo _ (segs (fun n hn => (hk.names n hn).inline) (lit _ (by decide)))
      simp only [List.mem_append, not_or]
      refine ⟨⟨lit _ (by decide), fun hm => ?_⟩, lit _ (by decide)⟩
      rcases countPrint_chars hk c hm with e | e
      · exact lit c!"-" (by decide) (by simp [e])
      · simp only [Bool.or_eq_true, Bool.and_eq_true] at hc
        rcases hc with ⟨hc, -⟩ | hc
        · rw [digit_not_space e] at hc; simp at hc
        · have : ∀ x ∈ c!"\"[];", digit x = false := by decide
          rw [this c (by simpa using hc)] at e; simp at e
  have hfield : c ∉ joinS c!" ," (fieldsOf t) := by
    intro h
    rcases of_mem_joinS h with h | ⟨f, hf, h⟩
    · exact lit _ (by decide) h
    · simp only [fieldsOf, List.mem_append, List.mem_map, Table.iter, Dict.vals] at hf
      rcases hf with ⟨d, ⟨p, hp, rfl⟩, rfl⟩ | hf
      · have hcol := hr.cols p hp
        have e : colPrint p.2 = quoteLine [] [(p.2.name, ' ' :: p.2.type)] := by simp [colPrint, quoteLine]
        rw [e] at h
        refine quo (by simp) ?_ h
        intro q hq
        simp only [List.mem_singleton] at hq
        subst hq
        refine ⟨hcol.1.inline, ?_⟩
        simp only [List.mem_cons, not_or]
        exact ⟨fun e => lit c!" " (by decide) (by simp [e]), type_not_mem hcol.2 h1 (lit _ (by decide))⟩
      · split at hf
        · simp at hf
        · simp only [List.mem_singleton] at hf
          subst hf
          exact quo (lit _ (by decide)) (segs (fun n hn => (hr.pk n hn).inline) (lit _ (by decide))) h
  have hb : c ≠ ' ' := fun e => lit c!" " (by decide) (by simp [e])
  by_cases h : t.cols = []
  · have hp : t.pk = [] := by
      by_contra hp
      exact hr.someColumn (.inl hp) h
    rw [createBlock_empty h hp]
    simp only [List.mem_append, List.mem_cons, not_or]
    exact ⟨hhead, hb, hlast⟩
  · rw [createBlock_stmt h]
    simp only [List.mem_append, List.mem_cons, not_or]
    exact ⟨hhead, hb, hfield, hb, hlast⟩

/-- Phrases that do not occur in the declarations. -/
theorem Foreign.fields {w : Str} (h : Foreign w) (hw : w ∈ [c!"key ", c!"create database", c!"partition by hash"]) (h1 : hasSub w (lower c!"CONSTRAINT PRIMARY KEY ") = false) (h3 : hasSub w (lower c!", ") = false) {t : Table} (hr : ReadableTable t)
    (hc : t.cols ≠ []) : Lacks w (' ' :: (joinS c!" ," (fieldsOf t) ++ [' '])) := by
  have hne : w ≠ [] := fun e => by have := h.blank; rw [e] at this; simp at this
  have hb : Lacks w [' '] := lacks_infix (h.type (.inl (by decide : c!"INT" ∈ wordTypes))) ⟨c!" INT", [], rfl⟩
  have hf : ∀ f ∈ fieldsOf t, Lacks w (f ++ [' ']) := by
    intro f hf
    simp only [fieldsOf, List.mem_append, List.mem_map, Table.iter, Dict.vals] at hf
    rcases hf with ⟨d, ⟨p, hp, rfl⟩, rfl⟩ | hf
    · exact h.col ((hr.cols p hp).1.phrases w hw) (hr.cols p hp).2
    · split at hf
      · simp at hf
      · rename_i hp
        simp only [List.mem_singleton] at hf
        subst hf
        rw [pkPrint_eq hp]
        have e : c!"CONSTRAINT PRIMARY KEY " ++ '(' :: (listToString t.pk true ++ [')']) ++ [' '] = c!"CONSTRAINT PRIMARY KEY " ++ '(' :: (listToString t.pk true ++ ')' :: [' ']) := by simp
        rw [e]
        refine without_sep (h.sign (by decide)) (lacks_lit h1) (without_sep (h.sign (by decide)) ?_ hb)
        exact without_names hne (h.signs _ (by decide)) (hasSub_false_iff.1 h3) (fun n hn => without_word h.blank ((hr.pk n hn).chars _ (by decide)))
  have join : ∀ {fs : List Str}, (∀ f ∈ fs, Lacks w (f ++ [' '])) → Lacks w (joinS c!" ," fs ++ [' ']) := by
    intro fs hf
    induction fs with
    | nil => exact hb
    | cons f fs ih =>
      cases fs with
      | nil => exact hf f (by simp)
      | cons g fs =>
        have := without_sep (h.sign (c := ',') (by decide)) (hf f (by simp)) (ih (fun x hx => hf x (by simp [hx])))
        simpa [joinS] using this
  have hj := join hf
  have hh : ∃ x, joinS c!" ," (fieldsOf t) ++ [' '] = '"' :: x := by
    obtain ⟨d, ds, e⟩ := List.exists_cons_of_ne_nil (l := t.iter) (by simpa [Table.iter, Dict.vals] using hc)
    unfold fieldsOf
    rw [e, List.map_cons, colPrint, List.cons_append, joinS_head]
    exact ⟨_, rfl⟩
  obtain ⟨x, ex⟩ := hh
  rw [ex] at hj ⊢
  exact without_sep (a := [' ']) (h.sign (by decide)) hb (lacks_infix hj (List.suffix_cons _ _).isInfix)

theorem createHead_lacks {w : Str} (h : Foreign w) (ho : offName w = true) (h1 : hasSub w (lower c!"CREATE TABLE ") = false) (h2 : hasSub w (lower c!".") = false) (h3 : hasSub w (lower c!" ") = false)
    {t : Table} (hs : ReadableName t.schema) (hr : ReadableTable t) : Lacks w (c!"CREATE TABLE " ++ qpath t.schema t.name ++ [' ']) := by
  have := lacks_line (w := w) (t := c!"CREATE TABLE ") (l := [(t.schema, c!"."), (t.name, c!" ")]) ho (h.signs _ (by decide)) (lacks_lit h1) (by
    intro p hp
    simp only [List.mem_cons, List.not_mem_nil, or_false] at hp
    rcases hp with rfl | rfl
    · exact ⟨hs, lacks_lit h2⟩
    · exact ⟨hr.name, lacks_lit h3⟩)
  simpa [quoteLine, qpath, qname] using this

/-- The text after the declarations. -/
theorem createLast_lacks {w : Str} (h : Foreign w) (ho : offName w = true) (h1 : hasSub w (lower c!" PARTITION BY HASH") = false) (h2 : hasSub w (lower c!" KEY") = false)
    (h3 : hasSub w (lower c!", ") = false) {k : ShardKey} (hr : ReadableShard k) :
    Lacks w (c!" PARTITION BY HASH" ++ '(' :: (countPrint k.number ++ ')' :: (c!" KEY" ++ '(' :: (listToString k.keys true ++ ')' :: [])))) := by
  have hne : w ≠ [] := fun e => by have := h.blank; rw [e] at this; simp at this
  refine without_sep (h.sign (by decide)) (lacks_lit h1) (without_sep (h.sign (by decide)) ?_ (without_sep (h.sign (by decide)) (lacks_lit h2)
    (without_sep (h.sign (by decide)) ?_ (without_nil hne))))
  · exact without_word h.blank (count_not_mem hr (by decide) (by decide))
  · exact without_names hne (h.signs _ (by decide)) (hasSub_false_iff.1 h3) (fun n hn => without_name ho (hr.names n hn))

theorem foreign_database : Foreign c!"create database" := ⟨by decide, by decide, by decide⟩
theorem foreign_hash : Foreign c!"partition by hash" := ⟨by decide, by decide, by decide⟩

theorem create_lacks {t : Table} (hs : ReadableName t.schema) (hr : ReadableTable t) : Lacks c!"create database" (createBlock t).stmt ∧
    (t.shard = none → Lacks c!"partition by hash" (createBlock t).stmt) := by
  have h1 := createHead_lacks foreign_database (by decide) rfl rfl rfl hs hr
  have h2 := createHead_lacks foreign_hash (by decide) rfl rfl rfl hs hr
  by_cases h : t.cols = []
  · have hp : t.pk = [] := by
      by_contra hp
      exact hr.someColumn (.inl hp) h
    have hsh : t.shard = none := by
      by_contra hp
      exact hr.someColumn (.inr hp) h
    rw [createBlock_empty h hp, createHead_eq, hsh, List.append_assoc]
    exact ⟨without_sep (by decide) h1 (lacks_lit rfl), fun _ => without_sep (by decide) h2 (lacks_lit rfl)⟩
  · have f1 := foreign_database.fields (by decide) rfl rfl hr h
    have f2 := foreign_hash.fields (by decide) rfl rfl hr h
    rw [createBlock_stmt h, createHead_eq]
    cases e : t.shard with
    | none =>
      have ee : c!"CREATE TABLE " ++ qpath t.schema t.name ++ [' '] ++ ['('] ++ ' ' :: (joinS c!" ," (fieldsOf t) ++ ' ' :: createLast none) =
        (c!"CREATE TABLE " ++ qpath t.schema t.name ++ [' ']) ++ '(' :: ((' ' :: (joinS c!" ," (fieldsOf t) ++ [' '])) ++ ')' :: []) := by simp [createLast]
      rw [ee]
      exact ⟨without_sep (by decide) h1 (without_sep (by decide) f1 (lacks_lit rfl)), fun _ => without_sep (by decide) h2 (without_sep (by decide) f2 (lacks_lit rfl))⟩
    | some k =>
      have ee : c!"CREATE TABLE " ++ qpath t.schema t.name ++ [' '] ++ ['('] ++ ' ' :: (joinS c!" ," (fieldsOf t) ++ ' ' :: createLast (some k)) =
        (c!"CREATE TABLE " ++ qpath t.schema t.name ++ [' ']) ++ '(' :: ((' ' :: (joinS c!" ," (fieldsOf t) ++ [' '])) ++
          ')' :: (c!" PARTITION BY HASH" ++ '(' :: (countPrint k.number ++ ')' :: (c!" KEY" ++ '(' :: (listToString k.keys true ++ ')' :: []))))) := by
        simp only [createLast]
        rw [quoteLine_names (hr.shard k e).keys]
        simp
      rw [ee]
      refine ⟨without_sep (by decide) h1 (without_sep (by decide) f1 ?_), fun h => by simp at h⟩
      exact createLast_lacks foreign_database (by decide) rfl rfl rfl (hr.shard k e)

theorem tablePath_qpath {t : Table} (hs : ReadableName t.schema) (hn : ReadableName t.name) : TablePath (qpath t.schema t.name) t.name := by
  refine ⟨⟨qname t.schema ++ ['.'], .double, by simp [qpath, qname, Quote.wrap], .inr ⟨_, rfl⟩, name_not_mem hn (by decide)⟩, ?_, ?_, ?_⟩
  · intro c hc hm
    have : ∀ c ∈ c!".\"'`[]()", (isSpace c && c != ' ' || (c!"\"'`[]().,;").contains c) = true := by decide
    exact name_not_mem hn (this c hm) hc
  · simp only [qpath, qname, List.mem_append, List.mem_cons, List.not_mem_nil, or_false, not_or]
    exact ⟨⟨by decide, name_not_mem hs (by decide), by decide⟩, by decide, by decide, name_not_mem hn (by decide), by decide⟩
  · have := lacks_line (w := c!"or replace") (t := []) (l := [(t.schema, c!"."), (t.name, [])]) (by decide) (by decide) (lacks_lit rfl) (by
      intro p hp
      simp only [List.mem_cons, List.not_mem_nil, or_false] at hp
      rcases hp with rfl | rfl
      · exact ⟨hs, lacks_lit rfl⟩
      · exact ⟨hn, lacks_lit rfl⟩)
    have e : quoteLine [] [(t.schema, c!"."), (t.name, [])] = qpath t.schema t.name := by simp [quoteLine, qpath, qname]
    rw [e] at this
    exact this

theorem qpath_ub {s n : Str} (hs : ReadableName s) (hn : ReadableName n) : (qpath s n).map ub = qpath s n := by
  apply map_ub
  intro c hc
  simp only [qpath, qname, List.mem_append, List.mem_cons, List.not_mem_nil, or_false] at hc
  rcases hc with (rfl | hc | rfl) | rfl | rfl | hc | rfl
  · decide
  · exact ⟨by rintro rfl; exact name_not_mem hs (by decide) hc, by rintro rfl; exact name_not_mem hs (by decide) hc⟩
  · decide
  · decide
  · decide
  · exact ⟨by rintro rfl; exact name_not_mem hn (by decide) hc, by rintro rfl; exact name_not_mem hn (by decide) hc⟩
  · decide

/-- A table read back, before the ALTER TABLE statements. -/
def bareTable (schema : Str) (t : Table) : Table := { normalTable schema t with fks := [], rels := [] }

theorem createBlock_head {t : Table} (hr : ReadableTable t) : ∃ r, (createBlock t).stmt = c!"CREATE TABLE " ++ qpath t.schema t.name ++ [' '] ++ '(' :: r := by
  by_cases h : t.cols = []
  · have hp : t.pk = [] := by
      by_contra hp
      exact hr.someColumn (.inl hp) h
    rw [createBlock_empty h hp, createHead_eq]
    exact ⟨_, by rw [List.append_assoc]; rfl⟩
  · rw [createBlock_stmt h, createHead_eq]
    exact ⟨_, by rw [List.append_assoc]; rfl⟩

theorem getTableName_create {t : Table} (hs : ReadableName t.schema) (hr : ReadableTable t) : getTableName (createBlock t).stmt = t.name := by
  obtain ⟨r, e⟩ := createBlock_head hr
  have := getTableName_path (k := c!"CREATE TABLE ") (w := [' ']) (rest := r) (.create (by decide)) (tablePath_qpath hs hr.name) (by decide)
  rw [qpath_ub hs hr.name] at this
  rw [e, this]

theorem addColumns_create {t : Table} (hs : ReadableName t.schema) (hr : ReadableTable t) (hn : (t.cols.map Prod.fst).Nodup) (hc : ∀ p ∈ t.cols, p.1 = p.2.name)
    (schema : Str) : addColumnsOf { name := t.name, schema := schema, pk := [], shard := none, cols := [], fks := [], rels := [] } (createBlock t).stmt =
      .ok { bareTable schema t with shard := none } := by
  have hcols : ∀ (l : List (Str × Column)), (∀ p ∈ l, p.1 = p.2.name) → l.map (fun p => (p.1, { p.2 with type := normalType p.2.type })) =
      ((l.map Prod.snd).map (fun c => { c with type := normalType c.type })).map (fun c => (c.name, c)) := by
    intro l hl
    induction l with
    | nil => rfl
    | cons p l ih => simp only [List.map_cons, ih (fun x hx => hl x (by simp [hx])), hl p (by simp)]
  unfold addColumnsOf
  by_cases h : t.cols = []
  · have hp : t.pk = [] := by
      by_contra hp
      exact hr.someColumn (.inl hp) h
    have hsh : t.shard = none := by
      by_contra hp
      exact hr.someColumn (.inr hp) h
    have e : (createBlock t).stmt = c!"CREATE TABLE " ++ qpath t.schema t.name ++ [' '] ++ '(' :: [' '] ++ ')' :: [] := by
      rw [createBlock_empty h hp, createHead_eq, hsh]; simp [createLast]
    have hp' : '(' ∉ c!"CREATE TABLE " ++ qpath t.schema t.name ++ [' '] := by
      simp only [qpath, qname, List.mem_append, List.mem_cons, List.not_mem_nil, or_false, not_or]
      refine ⟨⟨by decide, ⟨by decide, name_not_mem hs (by decide), by decide⟩, by decide, by decide, name_not_mem hr.name (by decide), by decide⟩, by decide⟩
    have er : rawFields (createBlock t).stmt = [] := by
      rw [e, rawFields_body hp' (by simp)]; decide
    simp only [er, List.foldlM_nil, pure, Except.pure, bind, Except.bind]
    simp [Table.addColumns, bareTable, normalTable, h, hp]
  · obtain ⟨fs, f, e, hf⟩ := fold_fields hr h
    simp only [rawFields_create hs hr h e, hf { name := t.name, schema := schema, pk := [], shard := none, cols := [], fks := [], rels := [] } rfl, bind, Except.bind]
    rw [addColumns_cols]
    · simp only [List.nil_append, readCols, Table.iter, Dict.vals, bareTable, normalTable, hcols t.cols hc]
    · have : (readCols t).map (·.name) = t.cols.map Prod.fst := by
        simp only [readCols, Table.iter, Dict.vals, List.map_map]
        apply List.map_congr_left
        intro p hp
        exact (hc p hp).symm
      simp only [Dict.keys, List.map_nil, List.nil_append]
      rw [this]
      exact hn

theorem shard_create {t : Table} (hs : ReadableName t.schema) (hr : ReadableTable t) (schema : Str) :
    (if hasSub c!"partition by hash" (lower (createBlock t).stmt) then addHashKey { bareTable schema t with shard := none } (createBlock t).stmt
      else { bareTable schema t with shard := none }) = bareTable schema t := by
  cases e : t.shard with
  | none =>
    rw [hasSub_without ((create_lacks hs hr).2 e), if_neg (by simp)]
    simp [bareTable, normalTable, e]
  | some k =>
    have hk := hr.shard k e
    have hc : t.cols ≠ [] := hr.someColumn (.inr (by simp [e]))
    obtain ⟨n, hn, hn'⟩ := countPrint_eq hk
    obtain ⟨x, ex⟩ : ∃ x, (createBlock t).stmt = c!"CREATE TABLE" ++ (x ++ (c!"PARTITION BY HASH" ++ (c!"(" ++ (intToStr n ++ (c!") KEY" ++ (c!"(" ++ (listToString k.keys true ++ c!")"))))))) := by
      rw [createBlock_stmt hc, createHead_eq, e]
      simp only [createLast]
      rw [quoteLine_names hk.keys, hn]
      refine ⟨' ' :: (qpath t.schema t.name ++ (c!" ( " ++ (joinS c!" ," (fieldsOf t) ++ c!" ) "))), ?_⟩
      simp
    have hx : '\n' ∉ x := by
      intro hm
      have := create_not_mem hs hr (c := '\n') (by decide) (by decide) (by decide)
      rw [ex] at this
      simp only [List.mem_append, not_or] at this
      exact this.2.1 hm
    rw [hasSub_mid (w := c!"partition by hash") (a := c!"CREATE TABLE" ++ x) (b := c!"PARTITION BY HASH") (by rw [ex, List.append_assoc]) (by decide), if_pos rfl, ex]
    unfold addHashKey
    simp only [search_hash hx hk.names hk.keys, pyInt_intToStr, cleanNames_list hk.keys hk.names]
    simp only [bareTable, normalTable, e, Option.map_some, hn']

/-- Reading a CREATE TABLE. -/
theorem parse_create {t : Table} (hs : ReadableName t.schema) (hr : ReadableTable t) (hn : (t.cols.map Prod.fst).Nodup) (hc : ∀ p ∈ t.cols, p.1 = p.2.name)
    (schema : Str) (db : Database) : parseStatement schema db (createBlock t).stmt = .ok (db.addTable (bareTable schema t)) := by
  unfold parseStatement
  obtain ⟨r, e⟩ := createBlock_head hr
  have ht : hasSub c!"create table" (lower (createBlock t).stmt) = true :=
    hasSub_lit (a := c!"CREATE TABLE ") (b := qpath t.schema t.name ++ [' '] ++ '(' :: r) (by rw [e]; simp) (by decide)
  simp only [hasSub_without (create_lacks hs hr).1, ht, Bool.false_eq_true, if_false, Bool.true_or, if_true]
  unfold parseCreateTable
  rw [replace_absent (create_not_mem hs hr (c := '[') (by decide) (by decide) (by decide)), replace_absent (create_not_mem hs hr (c := ']') (by decide) (by decide) (by decide))]
  simp only [getTableName_create hs hr, mkTable, bind, Except.bind, addColumns_create hs hr hn hc, shard_create hs hr]

end Verif
