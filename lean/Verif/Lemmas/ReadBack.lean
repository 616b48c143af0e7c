import Verif.Lemmas.ReadCreate
import Verif.Lemmas.ReadableDec
/-
Reading all statements of a written database.
-/

namespace Verif
open Spec

/-- The statements lead from one database to the other. -/
def Leads (schema : Str) (d : Database) (ss : List Str) (d' : Database) : Prop := parseStatements schema d ss = (d', none)

theorem Leads.nil {schema : Str} {d : Database} : Leads schema d [] d := rfl

theorem Leads.append {schema : Str} {d d' d'' : Database} {a b : List Str} (h1 : Leads schema d a d') (h2 : Leads schema d' b d'') : Leads schema d (a ++ b) d'' := by
  unfold Leads at *
  induction a generalizing d with
  | nil =>
    simp only [parseStatements, Prod.mk.injEq, and_true] at h1
    subst h1; exact h2
  | cons s a ih =>
    simp only [List.cons_append, parseStatements] at h1 ⊢
    cases e : parseStatement schema d s with
    | error e' => rw [e] at h1; simp at h1
    | ok d1 => rw [e] at h1; exact ih h1

theorem Leads.single {schema : Str} {d d' : Database} {s : Str} (h : parseStatement schema d s = .ok d') : Leads schema d [s] d' := by
  simp [Leads, parseStatements, h]

theorem Leads.cons {schema : Str} {d d' d'' : Database} {s : Str} {b : List Str} (h1 : parseStatement schema d s = .ok d') (h2 : Leads schema d' b d'') : Leads schema d (s :: b) d'' :=
  Leads.append (a := [s]) (.single h1) h2

theorem Leads.same {schema : Str} {d : Database} {ss : List Str} (h : ∀ s ∈ ss, parseStatement schema d s = .ok d) : Leads schema d ss d := by
  induction ss with
  | nil => exact .nil
  | cons s ss ih => exact .cons (h s (by simp)) (ih (fun x hx => h x (by simp [hx])))

/-! ## Statements without effect -/

theorem parse_other {schema : Str} {d : Database} {a : Str} {l : List (Str × Str)} (hn : ∀ p ∈ l, ReadableName p.1 ∧ p.2 ∈ [[], c!"."])
    (ha : ∀ w ∈ [c!"create database", c!"create table", c!"create or replace table", c!"alter table"], hasSub w (lower a) = false) :
    parseStatement schema d (quoteLine a l) = .ok d := by
  have key : ∀ w ∈ [c!"create database", c!"create table", c!"create or replace table", c!"alter table"], hasSub w (lower (quoteLine a l)) = false := by
    intro w hw
    have hb : ∀ w ∈ [c!"create database", c!"create table", c!"create or replace table", c!"alter table"], offName w = true ∧ '"' ∉ w ∧
      ∀ e ∈ [[], c!"."], hasSub w (lower e) = false := by decide
    obtain ⟨h1, h2, h3⟩ := hb w hw
    exact hasSub_without (lacks_line h1 h2 (lacks_lit (ha w hw)) (fun p hp => ⟨(hn p hp).1, lacks_lit (h3 _ (hn p hp).2)⟩))
  unfold parseStatement
  simp only [key c!"create database" (by decide), key c!"create table" (by decide), key c!"create or replace table" (by decide), key c!"alter table" (by decide),
    Bool.false_eq_true, if_false, Bool.or_self]

theorem parse_use {schema : Str} {d : Database} {n : Str} (h : ReadableName n) : parseStatement schema d (useBlock n).stmt = .ok d := by
  simp only [useBlock, Block.stmt, List.map_nil, List.nil_append, joinS]
  exact parse_other (by simpa using h) (by decide)

theorem parse_createSchema {schema : Str} {d : Database} {n : Str} (h : ReadableName n) : parseStatement schema d (createSchemaBlock n).stmt = .ok d := by
  simp only [createSchemaBlock, Block.stmt, List.map_nil, List.nil_append, joinS]
  exact parse_other (by simpa using h) (by decide)

theorem parse_drop {schema : Str} {d : Database} {t : Table} (hs : ReadableName t.schema) (h : ReadableName t.name) : parseStatement schema d (dropBlock t).stmt = .ok d := by
  simp only [dropBlock, Block.stmt, List.map_nil, List.nil_append, joinS]
  exact parse_other (by simpa using ⟨hs, h⟩) (by decide)

theorem parse_createDb {schema : Str} {d : Database} {n : Str} : parseStatement schema d (createDbBlock n).stmt = .ok d := by
  simp only [createDbBlock, Block.stmt, List.map_nil, List.nil_append, joinS]
  unfold parseStatement
  simp only [hasSub_lit (w := c!"create database") (a := c!"CREATE DATABASE ") (s := quoteLine c!"CREATE DATABASE " [(n, [])]) rfl (by decide), if_true]

/-! ## Tables -/

/-- The tables counted in one schema. -/
def schemasOf (schema : Str) (n : Nat) : Dict Int := if n = 0 then [] else [(schema, n)]

theorem read_creates {schema : Str} : ∀ {l : List (Str × Table)} {d : Database} {n : Nat}, d.schemas = schemasOf schema n →
    (d.tables.map Prod.fst ++ l.map Prod.fst).Nodup → (∀ p ∈ l, p.1 = p.2.name ∧ ReadableName p.2.schema ∧ ReadableTable p.2 ∧ (p.2.cols.map Prod.fst).Nodup ∧
      ∀ q ∈ p.2.cols, q.1 = q.2.name) →
    Leads schema d ((l.flatMap (fun p => [dropBlock p.2, createBlock p.2])).map Block.stmt)
      { d with tables := d.tables ++ l.map (fun p => (p.1, bareTable schema p.2)), schemas := schemasOf schema (n + l.length) }
  | [], d, n, hd, _, _ => by
    have : { d with tables := d.tables ++ ([] : List (Str × Table)).map (fun p => (p.1, bareTable schema p.2)), schemas := schemasOf schema (n + ([] : List (Str × Table)).length) } = d := by
      cases d
      simp only at hd
      simp [hd]
    rw [this]; exact .nil
  | p :: l, d, n, hd, hn, hl => by
    obtain ⟨h1, h2, h3, h4, h5⟩ := hl p (by simp)
    simp only [List.flatMap_cons, List.cons_append, List.nil_append, List.map_cons]
    have e : d.addTable (bareTable schema p.2) = { d with tables := d.tables ++ [(p.1, bareTable schema p.2)], schemas := schemasOf schema (n + 1) } := by
      have hnm : (bareTable schema p.2).name ∉ d.tables.keys := by
        intro hc
        rw [List.nodup_append] at hn
        refine hn.2.2 _ hc _ (List.mem_cons_self ..) ?_
        rw [h1]; rfl
      have hsch : (bareTable schema p.2).schema = schema := rfl
      unfold Database.addTable
      rw [Dict.set_of_not_mem _ hnm, hsch, hd]
      have e1 : (bareTable schema p.2).name = p.1 := h1.symm
      rw [e1]
      congr 1
      unfold schemasOf
      by_cases hz : n = 0
      · subst hz; simp [Dict.set]
      · simp [hz, Dict.set, Dict.get?]
    refine .cons (parse_drop h2 h3.name) (.cons (d' := d.addTable (bareTable schema p.2)) ?_ ?_)
    · exact parse_create h2 h3 h4 h5 schema d
    · rw [e]
      have := read_creates (schema := schema) (l := l) (d := { d with tables := d.tables ++ [(p.1, bareTable schema p.2)], schemas := schemasOf schema (n + 1) }) (n := n + 1) rfl
        (by simpa using hn) (fun q hq => hl q (by simp [hq]))
      simp only [List.append_assoc, List.cons_append, List.nil_append] at this
      rw [show n + 1 + l.length = n + (l.length + 1) from by omega] at this
      exact this

theorem get_mid {α : Type} {A B : Dict α} {n : Str} {u : α} (h : n ∉ A.map Prod.fst) : Dict.get? (A ++ (n, u) :: B) n = some u := by
  induction A with
  | nil => simp [Dict.get?]
  | cons p A ih =>
    simp only [List.map_cons, List.mem_cons, not_or] at h
    rw [List.cons_append, Dict.get?_cons, if_neg (Ne.symm h.1), ih h.2]

theorem update_mid {d : Database} {A B : Dict Table} {n : Str} {u v : Table} (hd : d.tables = A ++ (n, u) :: B) (hA : n ∉ A.map Prod.fst) (hB : n ∉ B.map Prod.fst) :
    d.updateTable n (fun _ => v) = { d with tables := A ++ (n, v) :: B } := by
  have key : ∀ {L : Dict Table}, n ∉ L.map Prod.fst → L.map (fun p => if p.1 = n then (p.1, v) else p) = L := by
    intro L hL
    induction L with
    | nil => rfl
    | cons p L ih =>
      simp only [List.map_cons, List.mem_cons, not_or] at hL
      rw [List.map_cons, if_neg (Ne.symm hL.1), ih hL.2]
  unfold Database.updateTable
  rw [hd, List.map_append, List.map_cons, key hA, key hB, if_pos rfl]

/-- The keys of one table. -/
theorem read_fks {schema : Str} {t : Table} (hs : ReadableName t.schema) (hn : ReadableName t.name) {A B : Dict Table} (hA : t.name ∉ A.map Prod.fst) (hB : t.name ∉ B.map Prod.fst) :
    ∀ {l : List (Str × FK)} {d : Database} {u : Table}, d.tables = A ++ (t.name, u) :: B → u.name = t.name → (u.fks.map Prod.fst ++ l.map Prod.fst).Nodup →
    (∀ p ∈ l, p.1 = p.2.name ∧ ReadableFK t p.2) →
    Leads schema d (((l.map Prod.snd).map (fkBlock t)).map Block.stmt) { d with tables := A ++ (t.name, { u with fks := u.fks ++ l }) :: B }
  | [], d, u, hd, _, _, _ => by
    have : { d with tables := A ++ (t.name, { u with fks := u.fks ++ ([] : List (Str × FK)) }) :: B } = d := by
      cases d
      simp only at hd
      simp [hd]
    rw [this]; exact .nil
  | p :: l, d, u, hd, hu, hnd, hl => by
    obtain ⟨h1, h2⟩ := hl p (by simp)
    have hk : p.2.name ∉ u.fks.keys := by
      intro hc
      rw [List.nodup_append] at hnd
      refine hnd.2.2 _ hc _ (List.mem_cons_self ..) h1.symm
    simp only [List.map_cons]
    have hp := parse_fk hs hn h2 schema d (u := u) (by unfold Database.getTable; rw [hd]; exact get_mid hA) hu
    rw [update_mid hd hA hB, Dict.set_of_not_mem _ hk, ← h1] at hp
    refine .cons hp ?_
    have := read_fks (schema := schema) hs hn hA hB (l := l) (d := { d with tables := A ++ (t.name, { u with fks := u.fks ++ [(p.1, p.2)] }) :: B })
      (u := { u with fks := u.fks ++ [(p.1, p.2)] }) rfl hu (by simpa using hnd) (fun q hq => hl q (by simp [hq]))
    simpa using this

/-- The relationships of one table. -/
theorem read_rels {schema : Str} {t : Table} (hs : ReadableName t.schema) (hn : ReadableName t.name) {A B : Dict Table} (hA : t.name ∉ A.map Prod.fst) (hB : t.name ∉ B.map Prod.fst) :
    ∀ {l : List (Str × Rel)} {d : Database} {u : Table}, d.tables = A ++ (t.name, u) :: B → u.name = t.name → (u.rels.map Prod.fst ++ l.map Prod.fst).Nodup →
    (∀ p ∈ l, p.1 = p.2.name ∧ ReadableRel t p.2) →
    Leads schema d (((l.map Prod.snd).map (relBlock t)).map Block.stmt) { d with tables := A ++ (t.name, { u with rels := u.rels ++ l }) :: B }
  | [], d, u, hd, _, _, _ => by
    have : { d with tables := A ++ (t.name, { u with rels := u.rels ++ ([] : List (Str × Rel)) }) :: B } = d := by
      cases d
      simp only at hd
      simp [hd]
    rw [this]; exact .nil
  | p :: l, d, u, hd, hu, hnd, hl => by
    obtain ⟨h1, h2⟩ := hl p (by simp)
    have hk : p.2.name ∉ u.rels.keys := by
      intro hc
      rw [List.nodup_append] at hnd
      refine hnd.2.2 _ hc _ (List.mem_cons_self ..) h1.symm
    simp only [List.map_cons]
    have hp := parse_rel hs hn h2 schema d (u := u) (by unfold Database.getTable; rw [hd]; exact get_mid hA) hu
    rw [update_mid hd hA hB, Dict.set_of_not_mem _ hk, ← h1] at hp
    refine .cons hp ?_
    have := read_rels (schema := schema) hs hn hA hB (l := l) (d := { d with tables := A ++ (t.name, { u with rels := u.rels ++ [(p.1, p.2)] }) :: B })
      (u := { u with rels := u.rels ++ [(p.1, p.2)] }) rfl hu (by simpa using hnd) (fun q hq => hl q (by simp [hq]))
    simpa using this

/-- A pass over the tables that changes them one by one. -/
theorem read_pass {P : Table → Prop} {schema : Str} {F G : Table → Table} {blocks : Table → List Block} (hone : ∀ {t : Table} {d : Database} {A B : Dict Table}, d.tables = A ++ (t.name, F t) :: B →
      t.name ∉ A.map Prod.fst → t.name ∉ B.map Prod.fst → P t → Leads schema d ((blocks t).map Block.stmt) { d with tables := A ++ (t.name, G t) :: B }) :
    ∀ {l : List (Str × Table)} {d : Database} {A : Dict Table}, d.tables = A ++ l.map (fun p => (p.1, F p.2)) → (A.map Prod.fst ++ l.map Prod.fst).Nodup →
      (∀ p ∈ l, p.1 = p.2.name ∧ P p.2) →
      Leads schema d (((l.map Prod.snd).flatMap blocks).map Block.stmt) { d with tables := A ++ l.map (fun p => (p.1, G p.2)) }
  | [], d, A, hd, _, _ => by
    have : { d with tables := A ++ ([] : List (Str × Table)).map (fun p => (p.1, G p.2)) } = d := by
      cases d
      simp only at hd
      simp [hd]
    rw [this]; exact .nil
  | p :: l, d, A, hd, hn, hl => by
    obtain ⟨h1, h2⟩ := hl p (by simp)
    have hm : (l.map (fun p => (p.1, F p.2))).map Prod.fst = l.map Prod.fst := by simp
    simp only [List.map_cons, List.flatMap_cons, List.map_append]
    rw [List.nodup_append] at hn
    simp only [List.map_cons, List.nodup_cons] at hn
    have hA : p.2.name ∉ A.map Prod.fst := by
      intro hc
      exact hn.2.2 _ hc _ (List.mem_cons_self ..) h1.symm
    have hB : p.2.name ∉ (l.map (fun p => (p.1, F p.2))).map Prod.fst := by
      rw [hm, ← h1]; exact hn.2.1.1
    have e := hone (t := p.2) (d := d) (A := A) (B := l.map (fun p => (p.1, F p.2))) (by rw [hd, List.map_cons, h1]) hA hB h2
    refine e.append ?_
    have := read_pass (schema := schema) (F := F) (G := G) (blocks := blocks) hone (l := l)
      (d := { d with tables := A ++ (p.2.name, G p.2) :: l.map (fun p => (p.1, F p.2)) }) (A := A ++ [(p.2.name, G p.2)]) (by simp) (by
        simp only [List.map_append, List.map_cons, List.map_nil, List.append_assoc, List.cons_append, List.nil_append]
        rw [List.nodup_append]
        refine ⟨hn.1, ?_, fun a ha b hb => ?_⟩
        · rw [List.nodup_cons, ← h1]; exact hn.2.1
        · rw [← h1] at hb; exact hn.2.2 a ha b hb) (fun q hq => hl q (by simp [hq]))
    simpa [h1] using this

/-- All statements. -/
theorem read_blocks {db : Database} (h : ReadableDb db) (createDb : Bool) {schemas : List Str} (hs : ∀ s ∈ schemas, ReadableName s) (name schema : Str) :
    Leads schema (Database.empty name) ((dbBlocks createDb schemas db).map Block.stmt) (normalDb name schema db) := by
  unfold dbBlocks
  simp only [List.map_append]
  have hmem : ∀ p ∈ db.tables, p.1 = p.2.name := fun p hp => h.keyed.tableNames p.1 p.2 hp
  refine .append (d' := Database.empty name) ?_ (.append (d' := Database.empty name) ?_ (.append (d' := Database.empty name) ?_
    (.append (d' := { name := name, tables := db.tables.map (fun p => (p.1, bareTable schema p.2)), schemas := schemasOf schema db.tables.length }) ?_
    (.append (d' := { name := name, tables := db.tables.map (fun p => (p.1, { normalTable schema p.2 with rels := [] })), schemas := schemasOf schema db.tables.length }) ?_ ?_))))
  · split
    · exact .single parse_createDb
    · exact .nil
  · exact .single (parse_use h.name)
  · apply Leads.same
    intro s hm
    simp only [List.map_map, List.mem_map] at hm
    obtain ⟨n, hn, rfl⟩ := hm
    exact parse_createSchema (hs n hn)
  · have := read_creates (schema := schema) (l := db.tables) (d := Database.empty name) (n := 0) rfl (by simpa [Database.empty] using h.keyed.tables) (by
      intro p hp
      exact ⟨hmem p hp, h.tableSchemas p hp, h.tables p hp, h.keyed.cols p.1 p.2 hp, fun q hq => h.keyed.colNames p.1 p.2 hp q.1 q.2 hq⟩)
    have e : db.iter.flatMap (fun t => [dropBlock t, createBlock t]) = db.tables.flatMap (fun p => [dropBlock p.2, createBlock p.2]) := by
      simp only [Database.iter, Dict.vals, List.flatMap_map]
    rw [e]
    simpa [Database.empty] using this
  · have := read_pass (schema := schema) (F := bareTable schema) (G := fun t => { normalTable schema t with rels := [] }) (blocks := fun t => t.fks.vals.map (fkBlock t))
      (P := fun t => ReadableName t.schema ∧ ReadableTable t ∧ (t.fks.map Prod.fst).Nodup ∧ ∀ q ∈ t.fks, q.1 = q.2.name) (by
        intro t d A B hd hA hB hP
        have := read_fks (schema := schema) hP.1 hP.2.1.name hA hB (l := t.fks) hd rfl (by simpa [bareTable] using hP.2.2.1) (fun q hq => ⟨hP.2.2.2 q hq, hP.2.1.fks q hq⟩)
        simpa [bareTable, normalTable, Dict.vals] using this) (l := db.tables)
      (d := { name := name, tables := db.tables.map (fun p => (p.1, bareTable schema p.2)), schemas := schemasOf schema db.tables.length }) (A := []) rfl (by simpa using h.keyed.tables) (by
        intro p hp
        exact ⟨hmem p hp, h.tableSchemas p hp, h.tables p hp, h.keyed.fks p.1 p.2 hp, fun q hq => h.keyed.fkNames p.1 p.2 hp q.1 q.2 hq⟩)
    simpa [Database.iter, Dict.vals] using this
  · have := read_pass (schema := schema) (F := fun t => { normalTable schema t with rels := [] }) (G := normalTable schema) (blocks := fun t => t.rels.vals.map (relBlock t))
      (P := fun t => ReadableName t.schema ∧ ReadableTable t ∧ (t.rels.map Prod.fst).Nodup ∧ ∀ q ∈ t.rels, q.1 = q.2.name) (by
        intro t d A B hd hA hB hP
        have := read_rels (schema := schema) hP.1 hP.2.1.name hA hB (l := t.rels) hd rfl (by simpa [normalTable] using hP.2.2.1) (fun q hq => ⟨hP.2.2.2 q hq, hP.2.1.rels q hq⟩)
        simpa [normalTable, Dict.vals] using this) (l := db.tables)
      (d := { name := name, tables := db.tables.map (fun p => (p.1, { normalTable schema p.2 with rels := [] })), schemas := schemasOf schema db.tables.length }) (A := []) rfl (by simpa using h.keyed.tables) (by
        intro p hp
        exact ⟨hmem p hp, h.tableSchemas p hp, h.tables p hp, h.keyed.rels p.1 p.2 hp, fun q hq => h.keyed.relNames p.1 p.2 hp q.1 q.2 hq⟩)
    have e : schemasOf schema db.tables.length = (normalDb name schema db).schemas := by
      simp [schemasOf, normalDb]
    rw [e] at this ⊢
    simpa [Database.iter, Dict.vals, normalDb] using this

end Verif
