import Verif.Lemmas.ReadingTable
import Verif.Props.Statements
/-
What statements and files do, whatever their text is.
-/

namespace Verif
open Spec

theorem Spec.TableBuilt.unique {schema s : Str} {t t' : Table} (hc : CreatesTable s) (h : TableBuilt schema s t) (h' : TableBuilt schema s t') : t = t' := by
  have key : ∀ t, TableBuilt schema s t → parseStatement schema (Database.empty []) s = .ok (withTable (Database.empty []) t) :=
    fun t h => (parseCreateTable_iff hc).2 ⟨t, h, rfl⟩
  have e := (key t h).symm.trans (key t' h')
  injection e with e
  have := congrArg Database.tables e
  simp only [withTable, Database.empty, put, List.takeWhile_nil, List.dropWhile_nil, List.tail_nil, List.nil_append, List.cons.injEq, Prod.mk.injEq, and_true] at this
  exact this.2

theorem not_both {s : Str} (h1 : CreatesTable s) (h2 : Alters s) : False := by
  have a := (createsTable_iff.1 h1).2
  have b := (alters_iff.1 h2).2.2
  rw [b] at a
  cases a

theorem other_does {schema s : Str} {db : Database} (h1 : ¬ CreatesTable s) (h2 : ¬ Alters s) : parseStatement schema db s = .ok db := by
  rw [createsTable_iff] at h1
  rw [alters_iff] at h2
  unfold parseStatement
  dsimp only
  cases ha : hasSub c!"create database" (lower s)
  · cases hb : hasSub c!"create table" (lower s) || hasSub c!"create or replace table" (lower s)
    · cases hd : hasSub c!"alter table" (lower s)
      · rw [if_neg (by decide), if_neg (by decide), if_neg (by decide)]
      · exact absurd ⟨hd, ha, hb⟩ h2
    · exact absurd ⟨ha, hb⟩ h1
  · rfl

theorem does_iff {schema s : Str} {db db' : Database} (hk : (db.tables.map Prod.fst).Nodup) : Does schema s db db' ↔ parseStatement schema db s = .ok db' := by
  constructor
  · intro h
    cases h with
    | creates hc ht => exact (parseCreateTable_iff hc).2 ⟨_, ht, rfl⟩
    | changes ha h => exact changes_does hk ha h
    | nothing ha h => exact no_changes_does ha h
    | other h1 h2 => exact other_does h1 h2
  · intro h
    by_cases hc : CreatesTable s
    · obtain ⟨t, ht, rfl⟩ := (parseCreateTable_iff hc).1 h
      exact .creates hc ht
    · by_cases ha : Alters s
      · by_cases hx : ∃ n f, Changes s n f
        · obtain ⟨n, f, hx⟩ := hx
          rw [changes_does hk ha hx] at h
          injection h with h
          rw [← h]
          exact .changes ha hx
        · have hx' : ∀ n f, ¬ Changes s n f := fun n f h => hx ⟨n, f, h⟩
          rw [no_changes_does ha hx'] at h
          injection h with h
          rw [← h]
          exact .nothing ha hx'
      · rw [other_does hc ha] at h
        injection h with h
        rw [← h]
        exact .other hc ha

theorem withTable_nodup {db : Database} (hk : (db.tables.map Prod.fst).Nodup) (t : Table) : ((withTable db t).tables.map Prod.fst).Nodup := by
  rw [withTable_eq]
  exact Dict.nodup_set hk _ _

theorem does_nodup {schema s : Str} {db db' : Database} (hk : (db.tables.map Prod.fst).Nodup) (h : Does schema s db db') : (db'.tables.map Prod.fst).Nodup := by
  cases h with
  | creates _ _ => exact withTable_nodup hk _
  | changes _ _ => rw [changed_keys]; exact hk
  | nothing _ _ => exact hk
  | other _ _ => exact hk

theorem doAll_iff {schema : Str} : ∀ {ss : List Str} {db db' : Database}, (db.tables.map Prod.fst).Nodup →
    (DoAll schema ss db db' ↔ parseStatements schema db ss = (db', none))
  | [], db, db', _ => by
    constructor
    · intro h; cases h; rfl
    · intro h
      simp only [parseStatements, Prod.mk.injEq, and_true] at h
      rw [h]; exact .nil
  | s :: ss, db, db', hk => by
    constructor
    · intro h
      cases h with
      | cons h1 h2 =>
        unfold parseStatements
        rw [(does_iff hk).1 h1]
        exact (doAll_iff (does_nodup hk h1)).1 h2
    · intro h
      unfold parseStatements at h
      cases hs : parseStatement schema db s with
      | error e => rw [hs] at h; simp at h
      | ok db1 =>
        rw [hs] at h
        have h1 := (does_iff hk).2 hs
        exact .cons h1 ((doAll_iff (does_nodup hk h1)).2 h)

theorem doAll_nodup {schema : Str} {ss : List Str} {db db' : Database} (h : DoAll schema ss db db') : (db.tables.map Prod.fst).Nodup → (db'.tables.map Prod.fst).Nodup := by
  induction h with
  | nil => exact id
  | cons h1 _ ih => exact fun hk => ih (does_nodup hk h1)

/-- Where an exception stops the statements. -/
theorem stops_iff {schema : Str} {e : PyErr} : ∀ {ss : List Str} {db db' : Database}, (db.tables.map Prod.fst).Nodup →
    (parseStatements schema db ss = (db', some e) ↔ ∃ pre s post, ss = pre ++ s :: post ∧ DoAll schema pre db db' ∧ Breaks s e)
  | [], db, db', _ => by
    constructor
    · intro h; simp [parseStatements] at h
    · rintro ⟨pre, s, post, h, _⟩; simp at h
  | x :: ss, db, db', hk => by
    unfold parseStatements
    cases hs : parseStatement schema db x with
    | error e' =>
      have hb := parseStatement_error.1 hs
      constructor
      · intro h
        simp only [Prod.mk.injEq, Option.some.injEq] at h
        obtain ⟨rfl, rfl⟩ := h
        exact ⟨[], x, ss, rfl, .nil, hb⟩
      · rintro ⟨pre, s, post, h, hd, hb'⟩
        cases pre with
        | nil =>
          simp only [List.nil_append, List.cons.injEq] at h
          obtain ⟨rfl, rfl⟩ := h
          cases hd
          have := (parseStatement_error (schema := schema) (db := db)).2 hb'
          rw [hs] at this
          injection this with this
          rw [this]
        | cons y pre =>
          simp only [List.cons_append, List.cons.injEq] at h
          obtain ⟨rfl, _⟩ := h
          cases hd with
          | cons h1 _ => rw [(does_iff hk).1 h1] at hs; cases hs
    | ok db1 =>
      have h1 := (does_iff hk).2 hs
      dsimp only
      rw [stops_iff (does_nodup hk h1)]
      constructor
      · rintro ⟨pre, s, post, rfl, hd, hb⟩
        exact ⟨x :: pre, s, post, rfl, .cons h1 hd, hb⟩
      · rintro ⟨pre, s, post, h, hd, hb⟩
        cases pre with
        | nil =>
          simp only [List.nil_append, List.cons.injEq] at h
          obtain ⟨rfl, rfl⟩ := h
          rw [(parseStatement_error (schema := schema) (db := db)).2 hb] at hs
          cases hs
        | cons y pre =>
          simp only [List.cons_append, List.cons.injEq] at h
          obtain ⟨rfl, rfl⟩ := h
          cases hd with
          | cons h1' hd =>
            have e' := (does_iff hk).1 h1'
            rw [hs] at e'
            injection e' with e'
            subst e'
            exact ⟨pre, s, post, rfl, hd, hb⟩

end Verif
