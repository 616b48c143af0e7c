import Verif.Lemmas.TQLCreate
import Verif.Lemmas.Alter
/-
Whole scripts: what `write_tql` and `write_alters` write, read back.
-/

namespace Verif
open Verif.Spec

/-! ## Sequences of pieces -/

theorem writeAll_ok {ps : List (Except PyErr Str)} (h : (writeAll ps).2 = none) : ∀ p ∈ ps, ∃ s, p = .ok s := by
  induction ps with
  | nil => simp
  | cons p ps ih =>
    cases p with
    | error e => simp [writeAll] at h
    | ok s =>
      intro q hq
      rcases List.mem_cons.1 hq with rfl | hq
      · exact ⟨s, rfl⟩
      · exact ih (by simpa [writeAll] using h) q hq

theorem writeAll_none {ps : List (Except PyErr Str)} (h : ∀ p ∈ ps, ∃ s, p = .ok s) : (writeAll ps).2 = none := by
  induction ps with
  | nil => rfl
  | cons p ps ih =>
    obtain ⟨s, rfl⟩ := h p (by simp)
    simpa [writeAll] using ih (fun q hq => h q (by simp [hq]))

theorem writeAll_append {ps qs : List (Except PyErr Str)} (h : (writeAll ps).2 = none) :
    writeAll (ps ++ qs) = ((writeAll ps).1 ++ (writeAll qs).1, (writeAll qs).2) := by
  induction ps with
  | nil => simp [writeAll]
  | cons p ps ih =>
    cases p with
    | error e => simp [writeAll] at h
    | ok s =>
      have := ih (by simpa [writeAll] using h)
      simp [writeAll, this]

/-- If the piece could be written, it reads as `sts`. -/
def PieceE (p : Except PyErr Str) (sts : List Stmt) : Prop := ∀ txt, p = .ok txt → Piece txt sts

/-- The same for a list of pieces. -/
def PieceL (ps : List (Except PyErr Str)) (sts : List Stmt) : Prop := (writeAll ps).2 = none → Piece (writeAll ps).1 sts

theorem PieceL.nil : PieceL [] [] := fun _ => .nil

theorem PieceL.single {p : Except PyErr Str} {sts : List Stmt} (h : PieceE p sts) : PieceL [p] sts := by
  intro hok
  obtain ⟨s, rfl⟩ := writeAll_ok hok p (by simp)
  simpa [writeAll] using h s rfl

theorem PieceL.append {ps qs : List (Except PyErr Str)} {s t : List Stmt} (h1 : PieceL ps s) (h2 : PieceL qs t) :
    PieceL (ps ++ qs) (s ++ t) := by
  intro hok
  have all := writeAll_ok hok
  have n1 : (writeAll ps).2 = none := writeAll_none (fun p hp => all p (by simp [hp]))
  have n2 : (writeAll qs).2 = none := writeAll_none (fun p hp => all p (by simp [hp]))
  rw [writeAll_append n1]
  exact (h1 n1).append (h2 n2)

theorem PieceL.flatMap {α : Type} {l : List α} {f : α → List (Except PyErr Str)} {g : α → List Stmt}
    (h : ∀ a ∈ l, PieceL (f a) (g a)) : PieceL (l.flatMap f) (l.flatMap g) := by
  induction l with
  | nil => exact .nil
  | cons a l ih =>
    rw [List.flatMap_cons, List.flatMap_cons]
    exact (h a (by simp)).append (ih (fun b hb => h b (by simp [hb])))

theorem PieceL.map {α : Type} {l : List α} {f : α → Except PyErr Str} {g : α → Stmt}
    (h : ∀ a ∈ l, PieceE (f a) [g a]) : PieceL (l.map f) (l.map g) := by
  have := PieceL.flatMap (l := l) (f := fun a => [f a]) (g := fun a => [g a]) (fun a ha => .single (h a ha))
  rw [List.map_eq_flatMap, List.map_eq_flatMap]
  exact this

/-! ## Case mapping -/

theorem toCase_default (s : Str) : toCase {} s = .ok s := by
  unfold toCase; split <;> rfl

theorem toNat_ofNat {n : Nat} (h : n < 0xd800) : (Char.ofNat n).toNat = n := by
  have hv : n.isValidChar := Or.inl h
  unfold Char.ofNat
  rw [dif_pos hv]
  rfl

theorem lowerC_ne {c : Char} (h : c ≠ '"') : lowerC c ≠ '"' := by
  unfold lowerC
  split
  · rename_i hu
    simp only [isUpperA, Bool.and_eq_true, decide_eq_true_eq] at hu
    have h1 : 65 ≤ c.toNat := hu.1
    have h2 : c.toNat ≤ 90 := hu.2
    intro e
    have := congrArg Char.toNat e
    rw [show (Char.ofNat (c.toNat + 32)).toNat = c.toNat + 32 from by
      exact toNat_ofNat (by omega)] at this
    have h3 : ('"' : Char).toNat = 34 := rfl
    omega
  · exact h

theorem upperC_ne {c : Char} (h : c ≠ '"') : upperC c ≠ '"' := by
  unfold upperC
  split
  · rename_i hu
    simp only [isLowerA, Bool.and_eq_true, decide_eq_true_eq] at hu
    have h1 : 97 ≤ c.toNat := hu.1
    have h2 : c.toNat ≤ 122 := hu.2
    intro e
    have := congrArg Char.toNat e
    rw [show (Char.ofNat (c.toNat - 32)).toNat = c.toNat - 32 from by
      exact toNat_ofNat (by omega)] at this
    have h3 : ('"' : Char).toNat = 34 := rfl
    omega
  · exact h

theorem mem_camelTail {c : Char} : ∀ {s : Str}, c ∈ camelTail s → c ∈ s ∨ ∃ d ∈ s, c = upperC d
  | [], h => by simp [camelTail] at h
  | x :: t, h => by
    unfold camelTail at h
    split at h
    · rcases List.mem_cons.1 h with rfl | h
      · simp
      · rcases mem_camelTail h with h | ⟨d, hd, e⟩
        · simp [h]
        · exact .inr ⟨d, by simp [hd], e⟩
    · match t, h with
      | d :: t', h =>
        rcases List.mem_cons.1 h with rfl | h
        · exact .inr ⟨d, by simp, rfl⟩
        · rcases mem_camelTail h with h | ⟨e, he, e'⟩
          · simp [h]
          · exact .inr ⟨e, by simp [he], e'⟩

theorem mem_stripChars {p : Char → Bool} {s : Str} {c : Char} (h : c ∈ stripChars p s) : c ∈ s := by
  unfold stripChars at h
  rw [List.mem_reverse] at h
  have := List.mem_reverse.1 ((List.dropWhile_suffix p).subset h)
  exact (List.dropWhile_suffix p).subset this

theorem toCase_noQuote {o : GenOpts} {s s' : Str} (h : toCase o s = .ok s') (hs : '"' ∉ s) : '"' ∉ s' := by
  have hl : '"' ∉ lower s := by
    intro hc; obtain ⟨c, hc, e⟩ := List.mem_map.1 hc
    exact lowerC_ne (fun h => hs (h ▸ hc)) e
  have hu : '"' ∉ upper s := by
    intro hc; obtain ⟨c, hc, e⟩ := List.mem_map.1 hc
    exact upperC_ne (fun h => hs (h ▸ hc)) e
  unfold toCase at h
  split at h
  · cases h; exact hs
  · split at h
    · cases h; exact hl
    · split at h
      · cases h; exact hu
      · split at h
        · unfold toCamel at h
          split at h
          · cases h
          · rename_i c t e
            cases h
            have hm : ∀ d ∈ c :: t, d ≠ '"' := by
              intro d hd e'; subst e'
              exact hs (mem_stripChars (e ▸ hd))
            intro hc
            rcases List.mem_cons.1 hc with e' | hc
            · exact upperC_ne (hm c (by simp)) e'.symm
            · rcases mem_camelTail hc with h | ⟨d, hd, e'⟩
              · exact hm _ (by simp [h]) rfl
              · exact upperC_ne (hm d (by simp [hd])) e'.symm
        · cases h; exact hs

theorem colCase_noQuote {o : GenOpts} {s : Str} (hs : '"' ∉ s) : '"' ∉ colCase o s := by
  unfold colCase
  split
  · intro hc; obtain ⟨c, hc, e⟩ := List.mem_map.1 hc
    exact lowerC_ne (fun h => hs (h ▸ hc)) e
  · split
    · intro hc; obtain ⟨c, hc, e⟩ := List.mem_map.1 hc
      exact upperC_ne (fun h => hs (h ▸ hc)) e
    · exact hs

/-- The printed form of a name, if it can be printed. -/
def caseD (o : GenOpts) (s : Str) : Str :=
  match toCase o s with
  | .ok x => x
  | .error _ => []

theorem caseD_of {o : GenOpts} {s x : Str} (h : toCase o s = .ok x) : caseD o s = x := by simp [caseD, h]

theorem caseD_default (s : Str) : caseD {} s = s := caseD_of (toCase_default s)

/-! ## Statements of `write_tql` -/

/-- The CREATE TABLE statement of a table. -/
def createStmt (o : GenOpts) (t : Table) : Stmt :=
  .createTable (caseD o t.schema) (caseD o t.name) (t.cols.map (fun p => (colCase o p.2.name, p.2.type))) t.pk
    (t.shard.map (fun k => (countText k.number, k.keys)))

theorem plainCount_countText {n : ShardCount} (h : ∀ s, n ≠ .text s) : PlainCount (countText n) := by
  cases n with
  | int n => exact plainCount_int n
  | flt q => exact plainCount_int _
  | text s => exact absurd rfl (h s)

theorem plainCreate {o : GenOpts} {t : Table} (h : PlainTable t) {sn tn : Str} (hs : toCase o t.schema = .ok sn)
    (ht : toCase o t.name = .ok tn) :
    PlainCreate sn tn (t.cols.map (fun p => (colCase o p.2.name, p.2.type))) t.pk
      (t.shard.map (fun k => (countText k.number, k.keys))) where
  hsn := toCase_noQuote hs h.hschema
  htn := toCase_noQuote ht h.hname
  hcols := by
    intro p hp
    obtain ⟨q, hq, rfl⟩ := List.mem_map.1 hp
    exact ⟨colCase_noQuote (h.hcols q hq).1, (h.hcols q hq).2⟩
  hpk := h.hpk
  hshard := by
    intro n k e
    cases hsh : t.shard with
    | none => rw [hsh] at e; cases e
    | some sk =>
      rw [hsh] at e
      cases e
      exact ⟨plainCount_countText (h.hshard sk hsh).1, (h.hshard sk hsh).2⟩
  hempty := by
    intro e
    exact h.hempty (by simpa using e)

theorem pieceE_create {o : GenOpts} {t : Table} (h : PlainTable t) : PieceE (genCreateTable o t) [createStmt o t] := by
  intro txt ht
  obtain ⟨sn, tn, h1, h2, -, rfl⟩ := genCreateTable_eq ht
  have := piece_create (plainCreate h h1 h2)
  rw [createStmt, caseD_of h1, caseD_of h2]
  exact this

theorem pieceE_drop {o : GenOpts} {t : Table} (h1 : '"' ∉ t.schema) (h2 : '"' ∉ t.name) :
    PieceE (genDropTable o t) [.dropTable (caseD o t.schema) (caseD o t.name)] := by
  intro txt ht
  unfold genDropTable at ht
  cases htn : toCase o t.name with
  | error e => rw [htn] at ht; cases ht
  | ok tn =>
    cases hsn : toCase o t.schema with
    | error e => rw [htn, hsn] at ht; cases ht
    | ok sn =>
      rw [htn, hsn] at ht
      cases ht
      rw [caseD_of hsn, caseD_of htn]
      exact piece_dropTable (toCase_noQuote hsn h1) (toCase_noQuote htn h2)

theorem pieceE_fk {o : GenOpts} {t : Table} {k : FK} (hs : '"' ∉ t.schema) (h : PlainFK k) :
    PieceE (genForeignKey o t k) [.alter (caseD o t.schema) (caseD o k.fromTable)
      (.addFK k.name k.fromKeys (some (caseD o t.schema)) (caseD o k.toTable) k.toKeys)] := by
  intro txt ht
  unfold genForeignKey at ht
  cases hsn : toCase o t.schema with
  | error e => rw [hsn] at ht; cases ht
  | ok sn =>
    cases hf : toCase o k.fromTable with
    | error e => rw [hsn, hf] at ht; cases ht
    | ok ft =>
      cases htt : toCase o k.toTable with
      | error e => rw [hsn, hf, htt] at ht; cases ht
      | ok tt =>
        rw [hsn, hf, htt] at ht
        cases ht
        rw [caseD_of hsn, caseD_of hf, caseD_of htt]
        exact piece_addFK_tql (toCase_noQuote hsn hs) (toCase_noQuote hf h.hfrom) h.hname h.hfromKeys (toCase_noQuote hsn hs)
          (toCase_noQuote htt h.hto) h.htoKeys

theorem pieceE_rel {o : GenOpts} {t : Table} {r : Rel} (hs : '"' ∉ t.schema) (h : PlainRel r) :
    PieceE (genRelationship o t r) [.alter (caseD o t.schema) (caseD o r.fromTable)
      (.addRel r.name (some (caseD o t.schema)) (caseD o r.toTable) r.conditions)] := by
  intro txt ht
  unfold genRelationship at ht
  cases hsn : toCase o t.schema with
  | error e => rw [hsn] at ht; cases ht
  | ok sn =>
    cases hf : toCase o r.fromTable with
    | error e => rw [hsn, hf] at ht; cases ht
    | ok ft =>
      cases htt : toCase o r.toTable with
      | error e => rw [hsn, hf, htt] at ht; cases ht
      | ok tt =>
        rw [hsn, hf, htt] at ht
        cases ht
        rw [caseD_of hsn, caseD_of hf, caseD_of htt]
        exact piece_addRel_tql (toCase_noQuote hsn hs) (toCase_noQuote hf h.hfrom) h.hname (toCase_noQuote hsn hs)
          (toCase_noQuote htt h.hto) h.hcond

/-- The foreign key statements of a table. -/
def fkStmts (o : GenOpts) (t : Table) : List Stmt :=
  t.fks.vals.map (fun k => .alter (caseD o t.schema) (caseD o k.fromTable)
      (.addFK k.name k.fromKeys (some (caseD o t.schema)) (caseD o k.toTable) k.toKeys))

/-- The relationship statements of a table. -/
def relStmts (o : GenOpts) (t : Table) : List Stmt :=
  t.rels.vals.map (fun r => .alter (caseD o t.schema) (caseD o r.fromTable)
      (.addRel r.name (some (caseD o t.schema)) (caseD o r.toTable) r.conditions))

/-- The statements before the tables. -/
def headStmts (o : TqlOpts) (db : Database) : List Stmt :=
  (if o.createDb then [.createDb (caseD o.toGenOpts db.name)] else []) ++ [.useDb (caseD o.toGenOpts db.name)] ++
  (if o.createDb then (db.schemaNames.filter (fun s => decide (s ≠ defaultSchema))).map (fun s => .createSchema (caseD o.toGenOpts s)) else [])

/-- The statements of `write_tql`. -/
def tqlStmts (o : TqlOpts) (db : Database) : List Stmt :=
  headStmts o db ++
  db.iter.flatMap (fun t => [.dropTable (caseD o.toGenOpts t.schema) (caseD o.toGenOpts t.name), createStmt o.toGenOpts t]) ++
  db.iter.flatMap (fkStmts o.toGenOpts) ++ db.iter.flatMap (relStmts o.toGenOpts)

theorem pieceE_lone {o : GenOpts} {n : Str} (hn : '"' ∉ n) {f : Str → Stmt} {g : Str → Str}
    (h : ∀ x, '"' ∉ x → Piece (g x) [f x]) :
    PieceE (do let n ← toCase o n; .ok (g n)) [f (caseD o n)] := by
  intro txt ht
  cases hn' : toCase o n with
  | error e => rw [hn'] at ht; cases ht
  | ok x =>
    rw [hn'] at ht; cases ht
    rw [caseD_of hn']
    exact h x (toCase_noQuote hn' hn)

theorem writeTql_reads {o : TqlOpts} {db : Database} (h : PlainDb db) (hok : (writeTql o db).2 = none) :
    readScript (writeTql o db).1 = some (tqlStmts o db) := by
  apply Piece.read
  have mem : ∀ t ∈ db.iter, ∃ p ∈ db.tables, p.2 = t := fun t ht => by simpa [Database.iter, Dict.vals] using ht
  have htab : ∀ t ∈ db.iter, PlainTable t := by
    intro t ht; obtain ⟨p, hp, rfl⟩ := mem t ht; exact h.htables p hp
  refine (?_ : PieceL (tqlPieces o db) (tqlStmts o db)) hok
  unfold tqlPieces tqlStmts headStmts
  refine PieceL.append (PieceL.append (PieceL.append (PieceL.append (PieceL.append ?_ ?_) ?_) ?_) ?_) ?_
  · split
    · exact .single (pieceE_lone h.hname (fun x hx => piece_createDb hx))
    · exact .nil
  · exact .single (pieceE_lone h.hname (fun x hx => piece_useDb hx))
  · split
    · apply PieceL.map
      intro s hs
      have : s ∈ db.schemaNames := (List.mem_filter.1 hs).1
      obtain ⟨p, hp, rfl⟩ := List.mem_map.1 this
      exact pieceE_lone (h.hschemas p hp) (fun x hx => piece_createSchema hx)
    · exact .nil
  · apply PieceL.flatMap
    intro t ht
    have nl : PieceE (.ok c!"\n") [] := by
      intro txt e; cases e; exact .newline
    exact (PieceL.single nl).append ((PieceL.single (pieceE_drop (htab t ht).hschema (htab t ht).hname)).append
      ((PieceL.single nl).append (PieceL.single (pieceE_create (htab t ht)))))
  · apply PieceL.flatMap
    intro t ht
    apply PieceL.map
    intro k hk
    obtain ⟨p, hp, rfl⟩ := mem t ht
    obtain ⟨q, hq, rfl⟩ : ∃ q ∈ p.2.fks, q.2 = k := by simpa [Dict.vals] using hk
    exact pieceE_fk (htab _ ht).hschema (h.hfks p hp q hq)
  · apply PieceL.flatMap
    intro t ht
    apply PieceL.map
    intro k hk
    obtain ⟨p, hp, rfl⟩ := mem t ht
    obtain ⟨q, hq, rfl⟩ : ∃ q ∈ p.2.rels, q.2 = k := by simpa [Dict.vals] using hk
    exact pieceE_rel (htab _ ht).hschema (h.hrels p hp q hq)

end Verif
