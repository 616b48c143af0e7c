import Verif.Lemmas.Script
import Verif.Lemmas.Plain
import Verif.Props.Migrate
/-
Properties C18, C19: the text printed by `write_alters`, read as TQL (Spec/TQL.lean).
-/

namespace Verif.Props
open Verif Verif.Spec

/-- A difference whose printed statement can be read back: no `"` inside names, types and conditions that cannot be taken for
something else, and shard counts that are whole numbers. -/
def Printable : Diff → Prop
  | .tableCreated _ t => PlainTable t
  | .tableDropped _ t => '"' ∉ t.schema ∧ '"' ∉ t.name
  | .pkAdded _ _ _ => False
  | .pkDropped _ t => '"' ∉ t.schema ∧ '"' ∉ t.name
  | .shardAdded _ t n k => ('"' ∉ t.schema ∧ '"' ∉ t.name) ∧ (∃ i, n = .int i) ∧ ∀ x ∈ k, '"' ∉ x
  | .shardDropped _ t => '"' ∉ t.schema ∧ '"' ∉ t.name
  | .fkAdded _ t k => ('"' ∉ t.schema ∧ '"' ∉ t.name) ∧ PlainFK k
  | .fkDropped _ t n => ('"' ∉ t.schema ∧ '"' ∉ t.name) ∧ '"' ∉ n
  | .relAdded _ t r => ('"' ∉ t.schema ∧ '"' ∉ t.name) ∧ PlainRel r
  | .relDropped _ t n => ('"' ∉ t.schema ∧ '"' ∉ t.name) ∧ '"' ∉ n
  | .colAdded _ t c => ('"' ∉ t.schema ∧ '"' ∉ t.name) ∧ '"' ∉ c.name ∧ PlainType c.type
  | .colDropped _ t c => ('"' ∉ t.schema ∧ '"' ∉ t.name) ∧ '"' ∉ c.name
  | .colModified _ t c => ('"' ∉ t.schema ∧ '"' ∉ t.name) ∧ '"' ∉ c.name ∧ PlainType c.type

/-- The entries `write_alters` cannot print. -/
def Unprintable : Diff → Prop
  | .pkAdded _ _ _ => True
  | .tableCreated _ t => ∃ k s, t.shard = some k ∧ k.number = .text s
  | _ => False

theorem alterPrefix_ok (t : Table) :
    alterPrefix {} t = .ok (c!"ALTER TABLE \"" ++ t.schema ++ c!"\".\"" ++ t.name ++ c!"\" ") := by
  unfold alterPrefix
  rw [toCase_default, toCase_default]
  rfl

theorem pieceE_alter (fr : Rat → Str) {x : Diff} (h : Printable x) : PieceE (x.getAlter fr) [stmtOf x] := by
  intro txt ht
  cases x with
  | tableCreated m t =>
    have := pieceE_create (o := {}) h txt ht
    simpa [createStmt, caseD_default, stmtOf, colCase] using this
  | tableDropped m t =>
    have := pieceE_drop (o := {}) h.1 h.2 txt ht
    simpa [caseD_default, stmtOf] using this
  | pkAdded m t k => exact h.elim
  | pkDropped m t =>
    simp only [Diff.getAlter, genDropPrimaryKey, alterPrefix_ok] at ht
    cases ht
    exact piece_dropPK h.1 h.2
  | shardAdded m t n k =>
    obtain ⟨hn, ⟨i, rfl⟩, hk⟩ := h
    simp only [Diff.getAlter, genAddHashKey, alterPrefix_ok] at ht
    cases ht
    exact piece_setFact hn.1 hn.2 (plainCount_int i) hk
  | shardDropped m t =>
    simp only [Diff.getAlter, genDropHashKey, alterPrefix_ok] at ht
    cases ht
    exact piece_setDimension h.1 h.2
  | fkAdded m t k =>
    simp only [Diff.getAlter, genAddForeignKey, alterPrefix_ok] at ht
    cases ht
    exact piece_addFK_alter h.1.1 h.1.2 h.2.hname h.2.hfromKeys h.2.hto h.2.htoKeys
  | fkDropped m t n =>
    simp only [Diff.getAlter, genDropConstraint, alterPrefix_ok] at ht
    cases ht
    exact piece_dropCon h.1.1 h.1.2 h.2
  | relAdded m t r =>
    simp only [Diff.getAlter, genAddRelationship, alterPrefix_ok] at ht
    cases ht
    exact piece_addRel_alter h.1.1 h.1.2 h.2.hname h.2.hto h.2.hcond
  | relDropped m t n =>
    simp only [Diff.getAlter, genDropConstraint, alterPrefix_ok] at ht
    cases ht
    exact piece_dropCon h.1.1 h.1.2 h.2
  | colAdded m t c =>
    simp only [Diff.getAlter, genAddColumn, alterPrefix_ok] at ht
    cases ht
    exact piece_addCol h.1.1 h.1.2 h.2.1 h.2.2 _
  | colDropped m t c =>
    simp only [Diff.getAlter, genDropColumn, alterPrefix_ok] at ht
    cases ht
    exact piece_dropCol h.1.1 h.1.2 h.2
  | colModified m t c =>
    simp only [Diff.getAlter, genModifyColumn, alterPrefix_ok] at ht
    cases ht
    exact piece_modCol h.1.1 h.1.2 h.2.1 h.2.2

theorem genCreateTable_ok_iff (t : Table) :
    (∃ s, genCreateTable {} t = .ok s) ↔ ¬ ∃ k s, t.shard = some k ∧ k.number = .text s := by
  unfold genCreateTable
  rw [toCase_default, toCase_default]
  cases hs : t.shard with
  | none => simp [bind, Except.bind]
  | some k =>
    cases hk : k.number <;> simp [bind, Except.bind, fmtD, hk]

/-- An entry cannot be printed exactly if it is one of these two. -/
theorem getAlter_ok_iff (fr : Rat → Str) (x : Diff) : (∃ s, x.getAlter fr = .ok s) ↔ ¬ Unprintable x := by
  cases x with
  | tableCreated m t => exact genCreateTable_ok_iff t
  | pkAdded m t k =>
    simp [Diff.getAlter, genAddPrimaryKey, toCase_default, bind, Except.bind, Unprintable]
  | tableDropped m t => simp [Diff.getAlter, genDropTable, toCase_default, bind, Except.bind, Unprintable]
  | _ => simp [Diff.getAlter, genDropPrimaryKey, genAddHashKey, genDropHashKey, genAddForeignKey, genDropConstraint,
      genAddRelationship, genAddColumn, genDropColumn, genModifyColumn, alterPrefix_ok, bind, Except.bind, Unprintable]

theorem Printable.ok {x : Diff} (h : Printable x) : ¬ Unprintable x := by
  cases x with
  | tableCreated m t =>
    rintro ⟨k, s, hk, hs⟩
    exact (h.hshard k hk).1 s hs
  | pkAdded m t k => exact h.elim
  | _ => exact id

/-! ## C18 -/

/-- C18.  Full claim: for every difference list, the text written by `write_alters` reads as the statements that perform the
differences.  What holds: the same for lists of `Printable` differences, the exceptions being names with a `"`, types and
conditions that are not plain texts, shard counts that are no whole numbers, and primary key additions, which cannot be
printed at all (C19). -/
theorem C18_alter_script_reads_partial (fr : Rat → Str) {l : List Diff} (h : ∀ x ∈ l, Printable x) :
    (writeAlters fr l).2 = none ∧ readScript (writeAlters fr l).1 = some (l.map stmtOf) := by
  have ok : (writeAlters fr l).2 = none := by
    apply writeAll_none
    intro p hp
    obtain ⟨x, hx, rfl⟩ := List.mem_map.1 hp
    exact (getAlter_ok_iff fr x).2 (h x hx).ok
  exact ⟨ok, (PieceL.map (fun x hx => pieceE_alter fr (h x hx)) ok).read⟩

/-- The tables of both sides have the same primary key or the second has none, so that no primary key is added. -/
def NoKeyAdded (db1 db2 : Database) : Prop :=
  ∀ n t1 t2, TableOf db1 n t1 → TableOf db2 n t2 → t1.pk = t2.pk ∨ t2.pk = []

/-- All shard counts are whole numbers. -/
def WholeCounts (db : Database) : Prop :=
  ∀ n t k, TableOf db n t → t.shard = some k → ∃ i, k.number = .int i

theorem printable_dbE {rep : FK → FK → Bool} {shared : Str → Bool} {db1 db2 : Database} (h1 : WellKeyed db1)
    (h2 : WellKeyed db2) (p1 : PlainDb db1) (p2 : PlainDb db2) (hk : NoKeyAdded db1 db2) (hw : WholeCounts db2) (n : Str) :
    ∀ x ∈ dbE rep shared db1 db2 n, Printable x := by
  intro x hx
  unfold dbE regE at hx
  cases g1 : db1.tables.get? n with
  | none =>
    cases g2 : db2.tables.get? n with
    | none => rw [g1, g2] at hx; simp at hx
    | some t2 =>
      rw [g1, g2] at hx
      simp only [List.mem_singleton] at hx
      subst hx
      exact p2.htables _ (Dict.mem_of_get? g2)
  | some t1 =>
    have m1 := Dict.mem_of_get? g1
    have q1 := p1.htables _ m1
    have hn : '"' ∉ t1.schema ∧ '"' ∉ t1.name := ⟨q1.hschema, q1.hname⟩
    cases g2 : db2.tables.get? n with
    | none =>
      rw [g1, g2] at hx
      simp only [List.mem_singleton] at hx
      subst hx
      exact hn
    | some t2 =>
      have m2 := Dict.mem_of_get? g2
      have q2 := p2.htables _ m2
      rw [g1, g2] at hx
      simp only [tableE, List.mem_append, List.mem_flatMap] at hx
      rcases hx with (((hx | hx) | ⟨m, -, hx⟩) | ⟨m, -, hx⟩) | ⟨m, -, hx⟩
      · unfold pkE at hx
        rcases hk n t1 t2 ((tableOf_iff h1).2 g1) ((tableOf_iff h2).2 g2) with e | e
        · simp [e] at hx
        · rw [e] at hx
          split at hx
          · simp at hx
          · simp only [if_pos, List.append_nil, List.mem_singleton] at hx
            subst hx; exact hn
      · have hsh : ∀ s2, t2.shard = some s2 → Printable (.shardAdded db1.name t1 s2.number s2.keys) := by
          intro s2 e
          exact ⟨hn, hw n t2 s2 ((tableOf_iff h2).2 g2) e, (q2.hshard s2 e).2⟩
        unfold shardE at hx
        cases e1 : t1.shard with
        | none =>
          cases e2 : t2.shard with
          | none => simp [e1, e2] at hx
          | some s2 =>
            simp only [e1, e2, List.mem_singleton] at hx
            subst hx; exact hsh s2 e2
        | some s1 =>
          cases e2 : t2.shard with
          | none =>
            simp only [e1, e2, List.mem_singleton] at hx
            subst hx; exact hn
          | some s2 =>
            simp only [e1, e2] at hx
            split at hx
            · simp at hx
            · simp only [List.mem_singleton] at hx
              subst hx; exact hsh s2 e2
      · unfold fkE regE at hx
        cases f1 : t1.fks.get? m with
        | none =>
          cases f2 : t2.fks.get? m with
          | none => simp [f1, f2] at hx
          | some k2 =>
            simp only [f1, f2, List.mem_singleton] at hx
            subst hx; exact ⟨hn, p2.hfks _ m2 _ (Dict.mem_of_get? f2)⟩
        | some k1 =>
          have r1 := p1.hfks _ m1 _ (Dict.mem_of_get? f1)
          cases f2 : t2.fks.get? m with
          | none =>
            simp only [f1, f2, List.mem_singleton] at hx
            subst hx; exact ⟨hn, r1.hname⟩
          | some k2 =>
            simp only [f1, f2] at hx
            split at hx
            · simp only [List.mem_cons, List.not_mem_nil, or_false] at hx
              rcases hx with rfl | rfl
              · exact ⟨hn, r1.hname⟩
              · exact ⟨hn, p2.hfks _ m2 _ (Dict.mem_of_get? f2)⟩
            · simp at hx
      · unfold relE regE at hx
        cases f1 : t1.rels.get? m with
        | none =>
          cases f2 : t2.rels.get? m with
          | none => simp [f1, f2] at hx
          | some k2 =>
            simp only [f1, f2, List.mem_singleton] at hx
            subst hx; exact ⟨hn, p2.hrels _ m2 _ (Dict.mem_of_get? f2)⟩
        | some k1 =>
          have r1 := p1.hrels _ m1 _ (Dict.mem_of_get? f1)
          cases f2 : t2.rels.get? m with
          | none =>
            simp only [f1, f2, List.mem_singleton] at hx
            subst hx; exact ⟨hn, r1.hname⟩
          | some k2 =>
            simp only [f1, f2] at hx
            split at hx
            · simp at hx
            · simp only [List.mem_cons, List.not_mem_nil, or_false] at hx
              rcases hx with rfl | rfl
              · exact ⟨hn, r1.hname⟩
              · exact ⟨hn, p2.hrels _ m2 _ (Dict.mem_of_get? f2)⟩
      · unfold colE regE at hx
        cases f1 : t1.cols.get? m with
        | none =>
          cases f2 : t2.cols.get? m with
          | none => simp [f1, f2] at hx
          | some k2 =>
            simp only [f1, f2, List.mem_singleton] at hx
            subst hx; exact ⟨hn, q2.hcols _ (Dict.mem_of_get? f2)⟩
        | some k1 =>
          have r1 := q1.hcols _ (Dict.mem_of_get? f1)
          cases f2 : t2.cols.get? m with
          | none =>
            simp only [f1, f2, List.mem_singleton] at hx
            subst hx; exact ⟨hn, r1.1⟩
          | some k2 =>
            simp only [f1, f2] at hx
            split at hx
            · simp at hx
            · simp only [List.mem_singleton] at hx
              subst hx; exact ⟨hn, q2.hcols _ (Dict.mem_of_get? f2)⟩

/-- `dbOld` with the primary key of `dbFk`. -/
def dbOldKey : Database :=
  (((Database.empty c!"d").addTable
      { tblA with cols := [(c!"x", ⟨c!"x", c!"INT"⟩), (c!"w", ⟨c!"w", c!"DATE"⟩)]
                  fks := []
                  rels := [(c!"R", ⟨c!"R", c!"a", c!"b", c!"(x = y)"⟩)] }).addTable
    { tblB with shard := none }).addTable { tblB with name := c!"gone" }

/-- C18, end to end (with C17): the text `ddldiff` prints for two databases, read as TQL and executed on a server holding the
first, is accepted and leaves the second; under the conditions of C17, if both databases can be printed and no primary key is added. -/
theorem C18_alter_script_migrates_partial (fr : Rat → Str) {shared : Str → Bool} {db1 db2 : Database} (h1 : WellKeyed db1)
    (h2 : WellKeyed db2) (hm : Migratable shared db1 db2) (p1 : PlainDb db1) (p2 : PlainDb db2) :
    (NewTablesBare db1 db2 → NoKeyAdded db1 db2 → WholeCounts db2 → ∀ sv : Server, Holds sv db1 db2 →
      ∃ sts sv', readScript (writeAlters fr (compareDatabases shared db1 db2).1).1 = some sts ∧ execAll sv sts = some sv' ∧
        CatSame sv'.cat (catOf db2)) ∧
    (NewTablesBare db2 db1 → NoKeyAdded db2 db1 → WholeCounts db1 → ∀ sv : Server, Holds sv db2 db1 →
      ∃ sts sv', readScript (writeAlters fr (compareDatabases shared db1 db2).2).1 = some sts ∧ execAll sv sts = some sv' ∧
        CatSame sv'.cat (catOf db1)) := by
  constructor
  · intro hb hk hw sv hsv
    obtain ⟨sv', r, c⟩ := (C17_differences_migrate_partial h1 h2 hm).1 hb sv hsv
    refine ⟨_, sv', (C18_alter_script_reads_partial fr ?_).2, r, c⟩
    intro x hx
    rw [compareDatabases_fst h1 h2] at hx
    obtain ⟨n, -, hx⟩ := List.mem_flatMap.1 hx
    exact printable_dbE h1 h2 p1 p2 hk hw n x hx
  · intro hb hk hw sv hsv
    obtain ⟨sv', r, c⟩ := (C17_differences_migrate_partial h1 h2 hm).2 hb sv hsv
    refine ⟨_, sv', (C18_alter_script_reads_partial fr ?_).2, r, c⟩
    intro x hx
    rw [compareDatabases_snd h1 h2] at hx
    obtain ⟨n, -, hx⟩ := List.mem_flatMap.1 hx
    exact printable_dbE h2 h1 p2 p1 hk hw n x hx

/-- The pair of C17's example without the primary key difference meets the hypotheses of `C18_alter_script_migrates_partial`. -/
example : NoKeyAdded dbOldKey dbFk ∧ WholeCounts dbFk ∧ PlainDb dbOldKey ∧ PlainDb dbFk ∧
    (compareDatabases (fun _ => false) dbOldKey dbFk).1.length = 6 := by
  refine ⟨?_, ?_, plainDbB_sound (by decide), plainDbB_sound (by decide), by decide⟩
  · have : ∀ p ∈ dbOldKey.tables, ∀ q ∈ dbFk.tables, p.1 = q.1 → p.2.pk = q.2.pk := by decide
    exact fun n a b ha hb => .inl (this _ ha _ hb rfl)
  · have : ∀ p ∈ dbFk.tables, p.2.shard = none ∨ p.2.shard = some ⟨[c!"y"], .int 8⟩ := by decide
    intro n t k ht hk
    rcases this _ ht with e | e
    · rw [e] at hk; cases hk
    · rw [e] at hk; cases hk; exact ⟨8, rfl⟩

/-- A name with a `"` is not read back. -/
theorem C18_quote_in_name :
    readScript (writeAlters (fun _ => c!"") [.colDropped c!"d" tblA ⟨c!"x\"y", c!"INT"⟩]).1 ≠
      some [stmtOf (.colDropped c!"d" tblA ⟨c!"x\"y", c!"INT"⟩)] := by decide

/-- A table without columns but with a primary key is printed as a list starting with a comma. -/
theorem C18_no_columns :
    readScript (writeAlters (fun _ => c!"") [.tableCreated c!"d" { tblB with cols := [] }]).1 = none := by decide

/-- A shard count read from a spreadsheet is printed as `128.0`, not as the count of the table. -/
theorem C18_float_count :
    readScript (writeAlters (fun _ => c!"128.0") [.shardAdded c!"d" tblA (.flt 128) [c!"x"]]).1 ≠
      some [stmtOf (.shardAdded c!"d" tblA (.flt 128) [c!"x"])] := by decide

/-! ## C19 -/

/-- The exception: `ValueError` from the broken format string, `TypeError` from `'%d'` of a text. -/
def alterError : Diff → PyErr
  | .pkAdded .. => .value
  | _ => .type

/-- C19.  `write_alters` raises exactly if some entry adds a primary key or creates a table whose shard count is a text; what is
in the file then is what the entries before the first such entry print, and nothing of the others. -/
theorem C19_raises_exactly (fr : Rat → Str) (l : List Diff) :
    ((writeAlters fr l).2 ≠ none ↔ ∃ x ∈ l, Unprintable x) ∧
    ∀ a x b, l = a ++ x :: b → (∀ y ∈ a, ¬ Unprintable y) → Unprintable x →
      (writeAlters fr a).2 = none ∧ (writeAlters fr l).1 = (writeAlters fr a).1 ∧
      (writeAlters fr l).2 = some (alterError x) := by
  have ok : ∀ a : List Diff, (∀ y ∈ a, ¬ Unprintable y) → (writeAlters fr a).2 = none := by
    intro a ha
    apply writeAll_none
    intro p hp
    obtain ⟨y, hy, rfl⟩ := List.mem_map.1 hp
    exact (getAlter_ok_iff fr y).2 (ha y hy)
  constructor
  · constructor
    · intro h
      by_contra hc
      exact h (ok l (fun y hy hu => hc ⟨y, hy, hu⟩))
    · rintro ⟨x, hx, hu⟩ h
      exact (getAlter_ok_iff fr x).1 (writeAll_ok h _ (List.mem_map_of_mem hx)) hu
  · intro a x b e ha hx
    refine ⟨ok a ha, ?_⟩
    have e1 : writeAlters fr l = ((writeAlters fr a).1 ++ (writeAlters fr (x :: b)).1, (writeAlters fr (x :: b)).2) := by
      rw [e]
      unfold writeAlters
      rw [List.map_append]
      exact writeAll_append (ok a ha)
    rw [e1]
    have hg : x.getAlter fr = .error (alterError x) := by
      cases x with
      | pkAdded m t k => simp [Diff.getAlter, genAddPrimaryKey, toCase_default, bind, Except.bind, alterError]
      | tableCreated m t =>
        obtain ⟨k, s, hk, hs⟩ := hx
        simp [Diff.getAlter, genCreateTable, toCase_default, bind, Except.bind, hk, hs, fmtD, alterError]
      | _ => exact absurd hx id
    simp [writeAlters, writeAll, hg]

/-- C19, together with C18: the statements in the file are exactly those of the entries before the failing one. -/
theorem C19_prefix_reads (fr : Rat → Str) {l a b : List Diff} {x : Diff} (e : l = a ++ x :: b) (ha : ∀ y ∈ a, Printable y)
    (hx : Unprintable x) : readScript (writeAlters fr l).1 = some (a.map stmtOf) := by
  rw [((C19_raises_exactly fr l).2 a x b e (fun y hy => (ha y hy).ok) hx).2.1]
  exact (C18_alter_script_reads_partial fr ha).2

/-- On this pair the fifth of seven entries cannot be printed. -/
example : (compareDatabases (fun _ => false) dbOld dbFk).1 =
    (compareDatabases (fun _ => false) dbOld dbFk).1.take 4 ++
      .pkAdded c!"d" { tblB with pk := [], shard := none } [c!"y"] :: (compareDatabases (fun _ => false) dbOld dbFk).1.drop 5 ∧
    Unprintable (.pkAdded c!"d" { tblB with pk := [], shard := none } [c!"y"]) ∧
    (compareDatabases (fun _ => false) dbOld dbFk).1.length = 7 := ⟨by decide, trivial, by decide⟩

/-- A created table with a text as shard count (possible from a spreadsheet) also raises. -/
example : (writeAlters (fun _ => []) [.tableCreated c!"d" { tblB with shard := some ⟨[c!"y"], .text c!"many"⟩ }]).2 = some .type := by
  decide

end Verif.Props
