import Verif.Reports
import Verif.Spec.Reports
import Verif.Lemmas.Shapes
/-
Lemmas for C77: the functions that also return messages do the same to the database, and what it means that there are none.
-/

namespace Verif
open Spec

/-! ## Same databases -/

theorem addHashKeyTold_fst (t : Table) (stmt : Str) : (addHashKeyTold t stmt).1 = addHashKey t stmt := by
  unfold addHashKeyTold addHashKey
  split
  · split <;> simp_all
  · simp_all

theorem parseCreateTableTold_fst (schema : Str) (db : Database) (stmt : Str) :
    (parseCreateTableTold schema db stmt).map Prod.fst = parseCreateTable schema db stmt := by
  unfold parseCreateTableTold parseCreateTable
  simp only [mkTable, bind, Except.bind]
  generalize addColumnsOf _ _ = e
  cases e with
  | error e => rfl
  | ok t =>
    simp only [Except.map]
    split
    · rw [addHashKeyTold_fst]
    · rfl

theorem addPrimaryKeyTold_fst (db : Database) (stmt : Str) : (addPrimaryKeyTold db stmt).1 = addPrimaryKey db stmt := by
  unfold addPrimaryKeyTold addPrimaryKey
  generalize reMatch patPK stmt = r
  rcases r with _ | _ | ⟨tn, _ | ⟨keys, _ | ⟨x, l⟩⟩⟩
  · rfl
  · rfl
  · rfl
  · simp only
    cases extractTableName tn with
    | none => rfl
    | some tn =>
      simp only
      cases g : db.getTable tn with
      | none =>
        have := changed_absent (f := fun t => { t with pk := cleanNames keys }) g
        exact this.symm
      | some t => rfl
  · rfl

theorem readConstraintTold_eq (stmt c : Str) : readConstraint c = (readConstraintTold stmt c).toOption := by
  unfold readConstraintTold readConstraint
  simp only
  generalize strip (stripChars (· == ';') (stripChars (· == ',') (strip c))) = s
  have inner : (match reMatch patFKNoName s with
      | some [fk, tt, tk] => (extractTableName tt).map (fun tt => ((none : Option Str), cleanNames fk, tt, cleanNames tk))
      | _ => none) = (match reMatch patFKNoName s with
      | some [fk, tt, tk] =>
        match extractTableName tt with
        | some tt => Except.ok ((none : Option Str), cleanNames fk, tt, cleanNames tk)
        | none => .error (Report.failed .foreignKey noChar stmt)
      | _ => .error (.notFound .foreignKey stmt)).toOption := by
    generalize reMatch patFKNoName s = r
    rcases r with _ | _ | ⟨x1, _ | ⟨x2, _ | ⟨x3, _ | ⟨x4, l⟩⟩⟩⟩ <;> try rfl
    simp only
    cases extractTableName x2 <;> rfl
  generalize reMatch patFK s = r
  rcases r with _ | _ | ⟨x1, _ | ⟨x2, _ | ⟨x3, _ | ⟨x4, _ | ⟨x5, l⟩⟩⟩⟩⟩ <;> try exact inner
  simp only
  cases extractTableName x3 <;> rfl

theorem addConstraintsTold_fst (stmt tn : Str) : ∀ (cs : List Str) (db : Database), (addConstraintsTold stmt tn db cs).1 = addConstraints tn db cs
  | [], _ => rfl
  | c :: cs, db => by
    unfold addConstraintsTold addConstraints
    rw [readConstraintTold_eq stmt]
    cases readConstraintTold stmt c with
    | error m => rfl
    | ok k =>
      simp only [Except.toOption, storeForeignKey]
      cases g : db.getTable tn with
      | none => exact addConstraintsTold_fst stmt tn cs db
      | some t =>
        simp only
        cases t.addForeignKey (some (.many k.2.1)) (some k.2.2.1) (some (.many k.2.2.2)) k.1 with
        | error e => rfl
        | ok t' => exact addConstraintsTold_fst stmt tn cs _

theorem addForeignKeyTold_fst (db : Database) (stmt : Str) : (addForeignKeyTold db stmt).1 = addForeignKeyStmt db stmt := by
  unfold addForeignKeyTold addForeignKeyStmt
  generalize reMatch patAdd stmt = r
  rcases r with _ | _ | ⟨x1, _ | ⟨x2, l⟩⟩ <;> try rfl
  exact addConstraintsTold_fst _ _ _ _

theorem readRelationshipTold_eq (stmt : Str) : readRelationship stmt = (readRelationshipTold stmt).toOption := by
  unfold readRelationshipTold readRelationship
  have inner : (match reMatch patRelNoName stmt with
      | some [tn, tt, c] =>
        match extractTableName tn with
        | none => none
        | some tn => (extractTableName tt).map (fun tt => (tn, (none : Option Str), tt, c))
      | _ => none) = (match reMatch patRelNoName stmt with
      | some [tn, tt, c] =>
        match extractTableName tn, extractTableName tt with
        | some tn, some tt => Except.ok (tn, (none : Option Str), tt, c)
        | _, _ => .error (Report.failed .relationship noChar stmt)
      | _ => .error (.notFound .relationship stmt)).toOption := by
    generalize reMatch patRelNoName stmt = r
    rcases r with _ | _ | ⟨x1, _ | ⟨x2, _ | ⟨x3, _ | ⟨x4, l⟩⟩⟩⟩ <;> try rfl
    simp only
    cases extractTableName x1 <;> cases extractTableName x2 <;> rfl
  generalize reMatch patRel stmt = r
  rcases r with _ | _ | ⟨x1, _ | ⟨x2, _ | ⟨x3, _ | ⟨x4, _ | ⟨x5, l⟩⟩⟩⟩⟩ <;> try exact inner
  simp only
  cases extractTableName x1 <;> cases extractTableName x3 <;> rfl

theorem addRelationshipTold_fst (db : Database) (stmt : Str) : (addRelationshipTold db stmt).1 = addGenericRelationship db stmt := by
  unfold addRelationshipTold addGenericRelationship
  rw [readRelationshipTold_eq]
  cases readRelationshipTold stmt with
  | error m => rfl
  | ok k =>
    obtain ⟨tn, n, tt, c⟩ := k
    simp only [Except.toOption]
    cases g : db.getTable tn with
    | none => rfl
    | some t =>
      simp only
      cases t.addRelationship (some tt) n (some c) <;> rfl

theorem addShardKeyTold_fst (db : Database) : (addShardKeyTold db).1 = db := by
  unfold addShardKeyTold; split <;> rfl

theorem parseStatementTold_fst (schema : Str) (db : Database) (stmt : Str) :
    (parseStatementTold schema db stmt).map Prod.fst = parseStatement schema db stmt := by
  unfold parseStatementTold parseStatement
  simp only
  split
  · rfl
  split
  · exact parseCreateTableTold_fst schema db stmt
  split
  · split
    · simp only [Except.map, addPrimaryKeyTold_fst]
    split
    · simp only [Except.map, addForeignKeyTold_fst]
    split
    · simp only [Except.map, addRelationshipTold_fst]
    split
    · simp only [Except.map, addShardKeyTold_fst]
    · rfl
  · rfl

theorem parseStatementsTold_fst (schema : Str) : ∀ (l : List Str) (db : Database),
    ((parseStatementsTold schema db l).1, (parseStatementsTold schema db l).2.2) = parseStatements schema db l
  | [], _ => rfl
  | s :: l, db => by
    unfold parseStatementsTold parseStatements
    rw [← parseStatementTold_fst]
    cases parseStatementTold schema db s with
    | error e => rfl
    | ok r =>
      obtain ⟨db', ms⟩ := r
      exact parseStatementsTold_fst schema l db'

/-! ## Counting the constraints -/

theorem occurrences_skip {w : Str} {c : Char} (a b : Str) (ha : ∀ x ∈ a, small x ≠ c) : occurrences (c :: w) (a ++ b) = occurrences (c :: w) b := by
  induction a with
  | nil => rfl
  | cons x a ih =>
    rw [List.cons_append, occurrences, ih (fun y hy => ha y (by simp [hy])), if_neg, Nat.zero_add]
    rw [List.map_cons, List.cons_prefix_cons]
    exact fun h => ha x (by simp) h.1.symm

theorem consHead_length (c : Char) {l : List Str} (h : l ≠ []) : (consHead c l).length = l.length := by
  cases l with
  | nil => exact absurd rfl h
  | cons p ps => rfl

theorem splitCiGo_length : ∀ (s : Str) (k : Nat), (splitCiGo c!"constraint" k s).length = occurrences c!"constraint" (s.drop k) + 1
  | [], k => by cases k <;> simp [splitCiGo, occurrences]
  | c :: t, k + 1 => by rw [splitCiGo, splitCiGo_length t k, List.drop_succ_cons]
  | c :: t, 0 => by
    have ih0 := splitCiGo_length t 0
    have ih9 := splitCiGo_length t 9
    rw [List.drop_zero] at ih0
    rw [List.drop_zero, splitCiGo, occurrences, ← Props.lower_eq]
    have e : (startsCi c!"constraint" (c :: t) = true) = (c!"constraint" <+: lower (c :: t)) := propext startsCi_iff
    by_cases h : c!"constraint" <+: lower (c :: t)
    · rw [if_pos (e ▸ h), if_pos h, List.length_cons]
      have : occurrences c!"constraint" t = occurrences c!"constraint" (t.drop 9) := by
        conv_lhs => rw [← List.take_append_drop 9 t]
        refine occurrences_skip (w := c!"onstraint") (c := 'c') _ _ ?_
        intro x hx
        rw [Props.lower_eq, List.map_cons] at h
        have h2 := (List.cons_prefix_cons.1 h).2
        have h3 : (t.map small).take 9 = c!"onstraint" := (List.prefix_iff_eq_take.1 h2).symm
        have h4 : small x ∈ c!"onstraint" := by
          rw [← h3, ← List.map_take]
          exact List.mem_map_of_mem hx
        intro e
        rw [e] at h4
        exact absurd h4 (by decide)
      rw [this]
      have l9 : (c!"constraint").length - 1 = 9 := rfl
      rw [l9, ih9]; omega
    · rw [if_neg (e ▸ h), if_neg h, consHead_length, ih0, Nat.zero_add]
      intro h0
      rw [h0] at ih0
      simp at ih0

theorem constraints_count (stmt : Str) : (splitCi c!"constraint" stmt).tail.length = occurrences c!"constraint" stmt := by
  rw [List.length_tail, splitCi, splitCiGo_length]
  simp

theorem occurrences_pos {w : Str} (hw : w ≠ []) : ∀ {s : Str}, ¬ Lacks w s → 0 < occurrences w s
  | [], h => by
    refine absurd ?_ h
    intro h'
    rw [List.map_nil, List.infix_nil] at h'
    exact hw h'
  | c :: s, h => by
    rw [occurrences]
    by_cases hp : w <+: (c :: s).map small
    · rw [if_pos hp]; omega
    · have : ¬ Lacks w s := by
        intro hs
        apply h
        intro hi
        rw [List.map_cons] at hi
        rcases List.infix_cons_iff.1 hi with hi | hi
        · exact hp (by rw [List.map_cons]; exact hi)
        · exact hs hi
      have := occurrences_pos hw this
      omega

/-! ## No message, no loss -/

theorem told_primary {db : Database} {stmt : Str} :
    ((addPrimaryKeyTold db stmt).2 = [] ∧ ∃ n t cols, TableOf db n t ∧ (addPrimaryKeyTold db stmt).1 = changed db n (fun t => { t with pk := cols })) ∨
    (∃ m, (addPrimaryKeyTold db stmt).2 = [m] ∧ (addPrimaryKeyTold db stmt).1 = db) := by
  unfold addPrimaryKeyTold
  split
  · split
    · exact .inr ⟨_, rfl, rfl⟩
    · rename_i n _
      cases g : db.getTable n with
      | none => exact .inr ⟨_, rfl, rfl⟩
      | some t => exact .inl ⟨rfl, n, t, _, Dict.mem_of_get? g, rfl⟩
  · exact .inr ⟨_, rfl, rfl⟩

theorem addForeignKey_ok {t t' : Table} {a b : Option KeyArg} {c d : Option Str} (h : t.addForeignKey a c b d = .ok t') :
    ∃ k : FK, k.fromTable = t.name ∧ t' = { t with fks := t.fks.set k.name k } := by
  simp only [Table.addForeignKey, bind, Except.bind] at h
  cases e : mkFK (some t.name) a c b d with
  | error x => rw [e] at h; cases h
  | ok k =>
    rw [e] at h
    cases h
    refine ⟨k, ?_, rfl⟩
    unfold mkFK at e
    split at e
    · have h1 := ‹some t.name = some _›
      split at e
      · cases e
      · cases e; exact (Option.some.inj h1).symm
    · cases e

theorem told_constraints (stmt n : Str) : ∀ (cs : List Str) (db : Database), ∃ ks, KeysStored n db ks (addConstraintsTold stmt n db cs).1 ∧
    (((addConstraintsTold stmt n db cs).2 = [] ∧ ks.length = cs.length) ∨ ((addConstraintsTold stmt n db cs).2 ≠ [] ∧ ks.length < cs.length))
  | [], db => ⟨[], .nil, .inl ⟨rfl, rfl⟩⟩
  | c :: cs, db => by
    unfold addConstraintsTold
    cases readConstraintTold stmt c with
    | error m => exact ⟨[], .nil, .inr ⟨by simp, by simp⟩⟩
    | ok k =>
      simp only
      cases g : db.getTable n with
      | none =>
        obtain ⟨ks, h, hl⟩ := told_constraints stmt n cs db
        refine ⟨ks, h, .inr ⟨by simp, ?_⟩⟩
        rcases hl with ⟨-, hl⟩ | ⟨-, hl⟩ <;> simp <;> omega
      | some t =>
        simp only
        cases e : t.addForeignKey (some (.many k.2.1)) (some k.2.2.1) (some (.many k.2.2.2)) k.1 with
        | error e => exact ⟨[], .nil, .inr ⟨by simp, by simp⟩⟩
        | ok t' =>
          obtain ⟨x, hx, rfl⟩ := addForeignKey_ok e
          obtain ⟨ks, h, hl⟩ := told_constraints stmt n cs (db.updateTable n (fun _ => { t with fks := t.fks.set x.name x }))
          refine ⟨x :: ks, .cons hx ⟨Dict.mem_of_get? g, rfl⟩ h, ?_⟩
          rcases hl with ⟨h1, hl⟩ | ⟨h1, hl⟩
          · exact .inl ⟨h1, by simp [hl]⟩
          · exact .inr ⟨h1, by simp [hl]⟩

theorem told_foreign {db : Database} {stmt : Str} : ∃ n ks, KeysStored n db ks (addForeignKeyTold db stmt).1 ∧
    (((addForeignKeyTold db stmt).2 = [] ∧ ks.length = occurrences c!"constraint" stmt) ∨
     ((addForeignKeyTold db stmt).2 ≠ [] ∧ (ks = [] ∨ ks.length < occurrences c!"constraint" stmt))) := by
  unfold addForeignKeyTold
  split
  · rename_i n _
    obtain ⟨ks, h, hl⟩ := told_constraints stmt (cleanName n) (splitCi c!"constraint" stmt).tail db
    rw [constraints_count] at hl
    refine ⟨_, ks, h, ?_⟩
    rcases hl with hl | ⟨h1, hl⟩
    · exact .inl hl
    · exact .inr ⟨h1, .inr hl⟩
  · exact ⟨[], [], .nil, .inr ⟨by simp, .inl rfl⟩⟩

theorem addRelationship_ok {t t' : Table} {a b c : Option Str} (h : t.addRelationship a b c = .ok t') :
    ∃ r : Rel, r.fromTable = t.name ∧ t' = { t with rels := t.rels.set r.name r } := by
  simp only [Table.addRelationship, bind, Except.bind] at h
  cases e : mkRel (some t.name) a c b with
  | error x => rw [e] at h; cases h
  | ok k =>
    rw [e] at h
    cases h
    refine ⟨k, ?_, rfl⟩
    unfold mkRel at e
    split at e
    · have h1 := ‹some t.name = some _›
      cases e; exact (Option.some.inj h1).symm
    · cases e

theorem told_relationship {db : Database} {stmt : Str} :
    ((addRelationshipTold db stmt).2 = [] ∧ ∃ n t r, r.fromTable = t.name ∧ Replaced n t { t with rels := t.rels.set r.name r } db (addRelationshipTold db stmt).1) ∨
    (∃ m, (addRelationshipTold db stmt).2 = [m] ∧ (addRelationshipTold db stmt).1 = db) := by
  unfold addRelationshipTold
  split
  · exact .inr ⟨_, rfl, rfl⟩
  · rename_i tn n tt c _
    cases g : db.getTable tn with
    | none => exact .inr ⟨_, rfl, rfl⟩
    | some t =>
      simp only
      cases e : t.addRelationship (some tt) n (some c) with
      | error e => exact .inr ⟨_, rfl, rfl⟩
      | ok t' =>
        obtain ⟨r, hr, rfl⟩ := addRelationship_ok e
        exact .inl ⟨rfl, tn, t, r, hr, Dict.mem_of_get? g, rfl⟩

/-! ## Statements -/

theorem hasSub_not_lacks {w s : Str} : hasSub w (lower s) = true ↔ ¬ Lacks w s := by
  rw [hasSub_iff, without_eq, not_not]

theorem known_alter {schema stmt : Str} {db : Database} (h : ¬ Lacks c!"alter table" stmt) (hc : NotCreate stmt) :
    parseStatementTold schema db stmt = .ok (
      if hasSub c!"primary key" (lower stmt) then addPrimaryKeyTold db stmt
      else if hasSub c!"foreign" (lower stmt) then addForeignKeyTold db stmt
      else if hasSub c!"relationship" (lower stmt) then addRelationshipTold db stmt
      else if hasSub c!"hash" (lower stmt) then addShardKeyTold db else (db, [])) := by
  unfold parseStatementTold
  have h1 := hasSub_without (hc _ (by simp : c!"create database" ∈ _))
  have h2 := hasSub_without (hc _ (by simp : c!"create table" ∈ _))
  have h3 := hasSub_without (hc _ (by simp : c!"create or replace table" ∈ _))
  have h4 := hasSub_not_lacks.2 h
  simp only [h1, h2, h3, h4, Bool.false_or, Bool.false_eq_true, if_false, if_true]
  split
  · rfl
  split
  · rfl
  split
  · rfl
  split <;> rfl

/-! ## The documented forms -/

theorem ok_of_toOption {α : Type} {x : Except Report α} {a : α} (h : x.toOption = some a) : x = .ok a := by
  cases x with
  | error e => cases h
  | ok b => cases h; rfl

theorem getTable_replaced {db : Database} {n : Str} {t : Table} (h : db.getTable n = some t) (t' : Table) : (db.updateTable n (fun _ => t')).getTable n = some t' := by
  have : ∀ (l : Dict Table), l.get? n = some t → Dict.get? (l.map (fun p => if p.1 = n then (p.1, t') else p)) n = some t' := by
    intro l
    induction l with
    | nil => intro h; simp [Dict.get?] at h
    | cons p l ih =>
      intro h
      rw [List.map_cons]
      by_cases e : p.1 = n
      · rw [if_pos e]; subst e; simp [Dict.get?]
      · rw [if_neg e]
        simp only [Dict.get?, if_neg e] at h ⊢
        exact ih h
  exact this db.tables h

theorem quiet_constraints {stmt tn : Str} {cs : List Str} {ks : List KeyText} (h : List.Forall₂ Constraint cs ks) : ∀ {db : Database} {t : Table},
    db.getTable tn = some t → (addConstraintsTold stmt tn db cs).2 = [] := by
  induction h with
  | nil => intro db t _; rfl
  | @cons c k cs ks hc _ ih =>
    intro db t ht
    have hr := ok_of_toOption ((readConstraintTold_eq stmt c).symm.trans (readConstraint_constraint hc))
    have e : ∃ t', t.addForeignKey (some (.many k.cols)) (some k.table) (some (.many k.refs)) k.name = .ok t' := by
      simp only [Table.addForeignKey, mkFK, KeyArg.toList, List.nil_append, constraint_lengths hc, not_true_eq_false, if_false, bind, Except.bind]
      exact ⟨_, rfl⟩
    obtain ⟨t', e⟩ := e
    unfold addConstraintsTold
    simp only [hr, ht, e]
    exact ih (getTable_replaced ht t')

theorem quiet {stmt tn : Str} {f : Table → Table} (h : Alteration stmt tn f) (schema : Str) {db : Database} {t : Table} (ht : db.getTable tn = some t) :
    ∃ db', parseStatementTold schema db stmt = .ok (db', []) := by
  have key : ∀ r : Database × List Report, r.2 = [] → ∃ db', (Except.ok r : Except PyErr _) = .ok (db', []) := by
    rintro ⟨a, b⟩ rfl; exact ⟨a, rfl⟩
  cases h with
  | keys h =>
    obtain ⟨p1, p2⟩ := adds_fks_words h
    obtain ⟨u, m, hu, hf⟩ := adds_fks_parts h
    rw [known_alter (hasSub_not_lacks.1 p1) h.notCreate, hasSub_without h.notPrimary, p2]
    simp only [Bool.false_eq_true, if_false, if_true]
    apply key
    unfold addForeignKeyTold
    rw [m]
    simp only [hu]
    exact quiet_constraints hf ht
  | primary h =>
    obtain ⟨⟨p1, p2⟩, u, g, m, hu, hg⟩ := sets_pk_parts h
    rw [known_alter (hasSub_not_lacks.1 p1) h.notCreate, p2]
    simp only [if_true]
    apply key
    unfold addPrimaryKeyTold
    rw [m]
    simp only [hu, ht]
  | @relationship r h =>
    have hr := ok_of_toOption ((readRelationshipTold_eq stmt).symm.trans (readRelationship_text h))
    obtain ⟨kw, u, add, rest, e, hkw, -, hadd, -, -, -⟩ := h.shape
    have p1 : hasSub c!"alter table" (lower stmt) = true := has_keyword (a := []) e (by rw [hkw]; decide)
    have p2 : hasSub c!"relationship" (lower stmt) = true := has_keyword (a := kw ++ u) (kw := add) (by rw [e]; simp; rfl) (by rw [hadd]; decide)
    rw [known_alter (hasSub_not_lacks.1 p1) h.notCreate, hasSub_without h.notPrimary, hasSub_without h.notForeign, p2]
    simp only [Bool.false_eq_true, if_false, if_true]
    apply key
    unfold addRelationshipTold
    rw [hr]
    simp only [ht]
    have : ∃ t', t.addRelationship (some r.table) r.name (some r.cond) = .ok t' := ⟨_, rfl⟩
    obtain ⟨t', e'⟩ := this
    rw [e']

/-! ## Tables that are not there -/

theorem no_table {db : Database} {n : Str} : db.getTable n = none ↔ ∀ t, ¬ TableOf db n t := by
  constructor
  · intro h t ht
    have := (Dict.get?_isSome_iff db.tables n).2 (List.mem_map.2 ⟨(n, t), ht, rfl⟩)
    rw [Database.getTable] at h
    rw [h] at this
    cases this
  · intro h
    cases g : db.getTable n with
    | none => rfl
    | some t => exact absurd (Dict.mem_of_get? g) (h t)

theorem missing_constraints {stmt tn : Str} {cs : List Str} {ks : List KeyText} (h : List.Forall₂ Constraint cs ks) {db : Database} (hn : db.getTable tn = none) :
    addConstraintsTold stmt tn db cs = (db, List.replicate cs.length (.noTable .foreignKey tn)) := by
  induction h with
  | nil => rfl
  | @cons c k cs ks hc _ ih =>
    have hr := ok_of_toOption ((readConstraintTold_eq stmt c).symm.trans (readConstraint_constraint hc))
    unfold addConstraintsTold
    simp only [hr, hn, ih, List.length_cons, List.replicate_succ]

theorem missing_table {stmt tn : Str} {f : Table → Table} (h : Alteration stmt tn f) (schema : Str) {db : Database} (hn : db.getTable tn = none) :
    ∃ w, parseStatementTold schema db stmt = .ok (db, List.replicate (if w = .foreignKey then occurrences c!"constraint" stmt else 1) (.noTable w tn)) ∧
      ¬ Lacks (phrase w) stmt := by
  cases h with
  | keys h =>
    obtain ⟨p1, p2⟩ := adds_fks_words h
    obtain ⟨u, m, hu, hf⟩ := adds_fks_parts h
    refine ⟨.foreignKey, ?_, hasSub_not_lacks.1 p2⟩
    rw [known_alter (hasSub_not_lacks.1 p1) h.notCreate, hasSub_without h.notPrimary, p2]
    simp only [Bool.false_eq_true, if_false, if_true]
    unfold addForeignKeyTold
    rw [m]
    simp only [hu]
    rw [missing_constraints hf hn, constraints_count]
  | primary h =>
    obtain ⟨⟨p1, p2⟩, u, g, m, hu, hg⟩ := sets_pk_parts h
    refine ⟨.primaryKey, ?_, hasSub_not_lacks.1 p2⟩
    rw [known_alter (hasSub_not_lacks.1 p1) h.notCreate, p2]
    simp only [if_true]
    unfold addPrimaryKeyTold
    rw [m]
    simp [hu, hn]
  | @relationship r h =>
    have hr := ok_of_toOption ((readRelationshipTold_eq stmt).symm.trans (readRelationship_text h))
    obtain ⟨kw, u, add, rest, e, hkw, -, hadd, -, -, -⟩ := h.shape
    have p1 : hasSub c!"alter table" (lower stmt) = true := has_keyword (a := []) e (by rw [hkw]; decide)
    have p2 : hasSub c!"relationship" (lower stmt) = true := has_keyword (a := kw ++ u) (kw := add) (by rw [e]; simp; rfl) (by rw [hadd]; decide)
    refine ⟨.relationship, ?_, hasSub_not_lacks.1 p2⟩
    rw [known_alter (hasSub_not_lacks.1 p1) h.notCreate, hasSub_without h.notPrimary, hasSub_without h.notForeign, p2]
    simp only [Bool.false_eq_true, if_false, if_true]
    unfold addRelationshipTold
    rw [hr]
    simp [hn]

/-! ## Messages are true -/

theorem map_cons_prefix {w m g : Str} (h : m.map small = w) : w <+: (m ++ g).map small := by
  rw [List.map_append, h]; exact List.prefix_append _ _

theorem no_primary {stmt tn keys : Str} {db : Database} (h : reMatch patPK stmt = some [tn, keys]) (hn : extractTableName tn = none) :
    TrueReason stmt db .primaryKey noChar := by
  rw [patPK_eq] at h
  obtain ⟨m, g, r, gs, rfl, hm, -, ⟨m2, g2, r2, gs2, rfl, hm2, -, -, -⟩, e⟩ := caught (by decide) h
  simp only [ne_eq, reduceCtorEq, not_false_eq_true, and_self, if_true, List.cons.injEq] at e
  obtain ⟨rfl, -⟩ := e
  exact .noName rfl hm (noName_of hn) (map_cons_prefix hm2) (.inl rfl)

theorem lengths_of {t : Table} {a b : List Str} {c : Str} {d : Option Str} {e : PyErr} (h : t.addForeignKey (some (.many a)) (some c) (some (.many b)) d = .error e) :
    e = .value ∧ a.length ≠ b.length := by
  simp only [Table.addForeignKey, mkFK, KeyArg.toList, List.nil_append, bind, Except.bind] at h
  by_cases hl : a.length = b.length
  · simp [hl] at h
  · simp only [hl, not_false_eq_true, if_true] at h
    cases h; exact ⟨rfl, hl⟩

/-- What is said about a constraint that cannot be read. -/
theorem constraint_true {stmt c : Str} {db : Database} {m : Report} (hw : ¬ Lacks c!"foreign" stmt) (hc : PieceOf stmt c) (h : readConstraintTold stmt c = .error m) :
    TrueReport stmt db m := by
  have hof := constraintOf hc
  unfold readConstraintTold at h
  simp only at h
  generalize strip (stripChars (· == ';') (stripChars (· == ',') (strip c))) = s at h hof
  have hin : ∃ x y, stmt = x ++ (s ++ y) := by
    obtain ⟨p, a, b, ⟨x, kw, y, e, -, -, -⟩, rfl, -, -⟩ := hof
    exact ⟨x ++ kw ++ a, b ++ y, by rw [e]; simp⟩
  obtain ⟨x, y, hxy⟩ := hin
  have target : ∀ {pre tt rest : Str} {m g m2 : Str}, s = pre ++ (m ++ (g ++ (tt ++ (m2 ++ rest)))) → m.map small = c!") references" → (∀ c ∈ g, c = ' ') → m2.map small = c!" (" →
      extractTableName tt = none → TrueReport stmt db (.failed .foreignKey noChar stmt) := by
    intro pre tt rest m g m2 e hm hg hm2 hn
    refine .failed (w := .foreignKey) hw (.noTarget (a := x ++ pre) (kw := m ++ g) (g := tt) (b := m2 ++ (rest ++ y)) ?_ (noName_of hn) (.inl ⟨rfl, ⟨g.length, ?_⟩, map_cons_prefix hm2⟩))
    · rw [hxy, e]; simp
    · rw [List.map_append, hm]
      congr 1
      rw [List.eq_replicate_iff]
      refine ⟨by simp, ?_⟩
      intro b hb
      obtain ⟨c, hc, rfl⟩ := List.mem_map.1 hb
      rw [hg c hc]; decide
  split at h
  · rename_i n fk tt tk hm
    split at h
    · cases h
    · rename_i hn
      cases h
      rw [patFK_eq] at hm
      obtain ⟨m1, g1, r1, gs1, e1, -, -, ⟨m2, g2, r2, gs2, e2, -, -, ⟨m3, g3, r3, gs3, e3, -, -, ⟨m4, g4, r4, gs4, e4, hm4, hg4, ⟨m5, g5, r5, gs5, e5, hm5, -,
        ⟨m6, g6, r6, gs6, e6, hm6, -, -, -⟩, q5⟩, q4⟩, q3⟩, q2⟩, q1⟩ := caught (by decide) hm
      simp at q1 q2 q3 q4 q5
      subst q2 q4
      obtain ⟨rfl, rfl⟩ := q1
      obtain ⟨rfl, rfl⟩ := q3
      obtain ⟨rfl, rfl⟩ := q5
      simp at hm5
      subst m5
      refine target (pre := m1 ++ (n ++ (m2 ++ (g2 ++ (m3 ++ fk))))) (tt := tt) (rest := g6 ++ r6) (m := m4) (g := g4) (m2 := m6) ?_ hm4 hg4 hm6 hn
      rw [e1, e2, e3, e4, e5, e6]; simp
  · rename_i hnamed
    have h1 : reMatch patFK s = none := by
      cases hx : reMatch patFK s with
      | none => rfl
      | some gs =>
        exfalso
        rw [patFK_eq] at hx
        obtain ⟨m1, g1, r1, gs1, e1, -, -, ⟨m2, g2, r2, gs2, e2, -, -, ⟨m3, g3, r3, gs3, e3, -, -, ⟨m4, g4, r4, gs4, e4, hm4, hg4, ⟨m5, g5, r5, gs5, e5, hm5, -,
          ⟨m6, g6, r6, gs6, e6, hm6, -, ⟨m7, g7, r7, gs7, e7, hm7, -, q8, q7⟩, q6⟩, q5⟩, q4⟩, q3⟩, q2⟩, q1⟩ := caught (by decide) hx
        simp [Caught] at q1 q2 q3 q4 q5 q6 q7 q8
        rw [← patFK_eq] at hx
        refine hnamed g1 g3 g5 g6 ?_
        rw [hx, q1, q2, q3, q4, q5, q6, q7, q8]
    split at h
    · rename_i fk tt tk hm
      split at h
      · cases h
      · rename_i hn
        cases h
        rw [patFKNoName_eq] at hm
        obtain ⟨m2, g2, r2, gs2, e2, -, -, ⟨m3, g3, r3, gs3, e3, -, -, ⟨m4, g4, r4, gs4, e4, hm4, hg4, ⟨m5, g5, r5, gs5, e5, hm5, -,
          ⟨m6, g6, r6, gs6, e6, hm6, -, -, -⟩, q5⟩, q4⟩, q3⟩, q2⟩ := caught (by decide) hm
        simp at q2 q3 q4 q5
        subst q2 q4
        obtain ⟨rfl, rfl⟩ := q3
        obtain ⟨rfl, rfl⟩ := q5
        simp at hm5
        subst m5
        refine target (pre := m2 ++ (g2 ++ (m3 ++ fk))) (tt := tt) (rest := g6 ++ r6) (m := m4) (g := g4) (m2 := m6) ?_ hm4 hg4 hm6 hn
        rw [e2, e3, e4, e5, e6]; simp
    · rename_i hun
      cases h
      have h2 : reMatch patFKNoName s = none := by
        cases hx : reMatch patFKNoName s with
        | none => rfl
        | some gs =>
          exfalso
          rw [patFKNoName_eq] at hx
          obtain ⟨m2, g2, r2, gs2, e2, -, -, ⟨m3, g3, r3, gs3, e3, -, -, ⟨m4, g4, r4, gs4, e4, hm4, hg4, ⟨m5, g5, r5, gs5, e5, hm5, -,
            ⟨m6, g6, r6, gs6, e6, hm6, -, ⟨m7, g7, r7, gs7, e7, hm7, -, q8, q7⟩, q6⟩, q5⟩, q4⟩, q3⟩, q2⟩ := caught (by decide) hx
          simp [Caught] at q2 q3 q4 q5 q6 q7 q8
          rw [← patFKNoName_eq] at hx
          refine hun g3 g5 g6 ?_
          rw [hx, q2, q3, q4, q5, q6, q7, q8]
      rw [patFK_eq] at h1
      rw [patFKNoName_eq] at h2
      exact .notFound (w := .foreignKey) hw (.foreign hof (not_shaped rfl (by decide) h1) (not_shaped rfl (by decide) h2))

theorem told_constraints_true {stmt tn : Str} (hw : ¬ Lacks c!"foreign" stmt) : ∀ {cs : List Str}, (∀ c ∈ cs, PieceOf stmt c) →
    ∀ {db : Database} {m : Report}, m ∈ (addConstraintsTold stmt tn db cs).2 → TrueReport stmt db m
  | [], _, db, m, h => absurd h (by simp [addConstraintsTold])
  | c :: cs, hp, db, m, h => by
    unfold addConstraintsTold at h
    split at h
    · rename_i x hx
      simp only [List.mem_singleton] at h
      subst m
      exact constraint_true hw (hp c (by simp)) hx
    · split at h
      · rename_i g
        simp only [List.mem_cons] at h
        rcases h with rfl | h
        · exact .noTable hw (no_table.1 g)
        · exact told_constraints_true hw (fun c hc => hp c (by simp [hc])) h
      · rename_i k _ t g
        split at h
        · rename_i e he
          simp only [List.mem_singleton] at h
          subst h
          obtain ⟨rfl, hl⟩ := lengths_of he
          refine .failed (w := .foreignKey) hw ?_
          rw [keyFailure, reprList_eq, reprList_eq]
          exact .lengths (Dict.mem_of_get? g) hl
        · rename_i t' he
          obtain ⟨fk, hf, rfl⟩ := addForeignKey_ok he
          have := told_constraints_true hw (fun c hc => hp c (by simp [hc])) h
          clear h
          cases this with
          | notFound h h' => exact .notFound h h'
          | failed h h' =>
            refine .failed h ?_
            cases h' with
            | noClause h1 => exact .noClause h1
            | noNumber h1 h2 => exact .noNumber h1 h2
            | noName h1 h2 h3 h4 h5 => exact .noName h1 h2 h3 h4 h5
            | noTarget h1 h2 h3 => exact .noTarget h1 h2 h3
            | noAdd h1 => exact .noAdd h1
            | @lengths n u cols target refs name hu hl =>
              obtain ⟨p, hpm, ep⟩ := List.mem_map.1 hu
              split at ep
              · cases ep
                exact .lengths (t := t) (Dict.mem_of_get? g) hl
              · subst ep
                exact .lengths (t := u) hpm hl
          | @noTable w n h hn =>
            refine .noTable h (fun u hu => ?_)
            refine hn (if n = tn then { t with fks := t.fks.set fk.name fk } else u) (List.mem_map.2 ⟨(n, u), hu, ?_⟩)
            split <;> rfl

theorem hash_true {stmt : Str} {db : Database} {t : Table} {m : Report} (hw : ¬ Lacks c!"partition by hash" stmt) (h : m ∈ (addHashKeyTold t (stmt.map ub)).2) :
    TrueReport stmt db m := by
  have eb : stmt.map ub = bracketsQuoted stmt := rfl
  unfold addHashKeyTold at h
  split at h
  · rename_i n keys hs
    split at h
    · cases h
    · rename_i hn
      simp only [List.mem_singleton] at h
      subst h
      rw [eb]
      refine .failed (w := .hashKey) hw ?_
      rw [badInt, pyRepr_eq]
      refine .noNumber ?_ ?_
      · obtain ⟨r, hr, hm⟩ := reSearch_suffix hs
        rw [patHash_eq] at hm
        obtain ⟨m1, g1, r1, gs1, e1, -, -, ⟨m2, g2, r2, gs2, e2, -, -, ⟨m3, g3, r3, gs3, e3, hm3, -, ⟨m4, g4, r4, gs4, e4, hm4, -, -, q4⟩, q3⟩, q2⟩, q1⟩ := caught (by decide) hm
        simp at q1 q2 q3
        subst q1 q2
        obtain ⟨rfl, rfl⟩ := q3
        have h3 : m3 = c!"(" := small_id hm3 (fun c hc x hx => small_mark hx (by simp at hc; subst hc; decide))
        obtain ⟨d, m4', rfl⟩ : ∃ d l, m4 = d :: l := by
          cases m4 with
          | nil => cases hm4
          | cons d l => exact ⟨d, l, rfl⟩
        have h4 : d = ')' := by
          simp only [List.map_cons, List.cons.injEq] at hm4
          exact small_mark hm4.1 (by decide)
        subst h3 h4
        refine List.IsInfix.trans ?_ hr.isInfix
        exact ⟨m1 ++ (g1 ++ (m2 ++ g2)), m4' ++ (g4 ++ r4), by rw [e1, e2, e3, e4]; simp⟩
      · rw [← pyInt_isSome, hn]; simp
  · rename_i hs
    simp only [List.mem_singleton] at h
    subst h
    have h1 : reSearch patHash (stmt.map ub) = none := by
      cases hx : reSearch patHash (stmt.map ub) with
      | none => rfl
      | some gs =>
        exfalso
        obtain ⟨r, hr, hm⟩ := reSearch_suffix hx
        rw [patHash_eq] at hm
        obtain ⟨m1, g1, r1, gs1, e1, -, -, ⟨m2, g2, r2, gs2, e2, -, -, ⟨m3, g3, r3, gs3, e3, hm3, -, ⟨m4, g4, r4, gs4, e4, hm4, -, ⟨m5, g5, r5, gs5, e5, hm5, -,
          ⟨m6, g6, r6, gs6, e6, hm6, -, q7, q6⟩, q5⟩, q4⟩, q3⟩, q2⟩, q1⟩ := caught (by decide) hm
        simp [Caught] at q1 q2 q3 q4 q5 q6 q7
        refine hs g3 g5 ?_
        rw [hx, q1, q2, q3, q4, q5, q6, q7]
    rw [eb]
    refine .failed (w := .hashKey) hw (.noClause ?_)
    intro r hr
    have := reSearch_none h1 r hr
    rw [patHash_eq] at this
    exact not_shaped rfl (by decide) this

theorem relationship_true {stmt : Str} {db : Database} {m : Report} (hw : ¬ Lacks c!"relationship" stmt) (h : readRelationshipTold stmt = .error m) : TrueReport stmt db m := by
  have source : ∀ {tn rest : Str} {m m2 : Str}, stmt = m ++ (tn ++ (m2 ++ rest)) → m.map small = c!"alter table " → c!" " <+: m2.map small →
      extractTableName tn = none → TrueReport stmt db (.failed .relationship noChar stmt) := by
    intro tn rest m m2 e hm hm2 hn
    refine .failed (w := .relationship) hw (.noName (kw := m) (g := tn) (b := m2 ++ rest) e hm (noName_of hn) ?_ (.inr rfl))
    rw [List.map_append]; exact hm2.trans (List.prefix_append _ _)
  have target : ∀ {pre tt rest : Str} {m m2 : Str}, stmt = pre ++ (m ++ (tt ++ (m2 ++ rest))) → m.map small = c!" with " → m2.map small = c!" as " →
      extractTableName tt = none → TrueReport stmt db (.failed .relationship noChar stmt) := by
    intro pre tt rest m m2 e hm hm2 hn
    exact .failed (w := .relationship) hw (.noTarget (a := pre) (kw := m) (g := tt) (b := m2 ++ rest) e (noName_of hn) (.inr ⟨rfl, hm, map_cons_prefix hm2⟩))
  unfold readRelationshipTold at h
  split at h
  · rename_i tn n tt c hm
    split at h
    · cases h
    · rename_i hn
      cases h
      rw [patRel_eq] at hm
      obtain ⟨m1, g1, r1, gs1, e1, hm1, -, ⟨m2, g2, r2, gs2, e2, hm2, -, ⟨m3, g3, r3, gs3, e3, hm3, -, ⟨m4, g4, r4, gs4, e4, hm4, -, q5, q4⟩, q3⟩, q2⟩, q1⟩ := caught (by decide) hm
      simp at q1 q2 q3 q4
      obtain ⟨rfl, rfl⟩ := q1
      obtain ⟨rfl, rfl⟩ := q2
      obtain ⟨rfl, rfl⟩ := q3
      cases ea : extractTableName tn with
      | none =>
        refine source (tn := tn) (rest := n ++ r2) (m := m1) (m2 := m2) ?_ hm1 ?_ ea
        · rw [e1, e2]
        · rw [hm2]; exact ⟨c!"add relationship ", rfl⟩
      | some a =>
        cases eb : extractTableName tt with
        | none =>
          refine target (pre := m1 ++ (tn ++ (m2 ++ n))) (tt := tt) (rest := g4 ++ r4) (m := m3) (m2 := m4) ?_ hm3 hm4 eb
          rw [e1, e2, e3, e4]; simp
        | some b => exact (hn a b ea eb).elim
  · rename_i hnamed
    have h1 : reMatch patRel stmt = none := by
      cases hx : reMatch patRel stmt with
      | none => rfl
      | some gs =>
        exfalso
        rw [patRel_eq] at hx
        obtain ⟨m1, g1, r1, gs1, e1, hm1, -, ⟨m2, g2, r2, gs2, e2, hm2, -, ⟨m3, g3, r3, gs3, e3, hm3, -, ⟨m4, g4, r4, gs4, e4, hm4, -, q5, q4⟩, q3⟩, q2⟩, q1⟩ := caught (by decide) hx
        simp [Caught] at q1 q2 q3 q4 q5
        rw [← patRel_eq] at hx
        refine hnamed g1 g2 g3 g4 ?_
        rw [hx, q1, q2, q3, q4, q5]
    split at h
    · rename_i tn tt c hm
      split at h
      · cases h
      · rename_i hn
        cases h
        rw [patRelNoName_eq] at hm
        obtain ⟨m1, g1, r1, gs1, e1, hm1, -, ⟨m2, g2, r2, gs2, e2, hm2, -, ⟨m3, g3, r3, gs3, e3, hm3, -, q4, q3⟩, q2⟩, q1⟩ := caught (by decide) hm
        simp at q1 q2 q3
        obtain ⟨rfl, rfl⟩ := q1
        obtain ⟨rfl, rfl⟩ := q2
        cases ea : extractTableName tn with
        | none =>
          refine source (tn := tn) (rest := tt ++ r2) (m := m1) (m2 := m2) ?_ hm1 ?_ ea
          · rw [e1, e2]
          · rw [hm2]; exact ⟨c!"add relationship with ", rfl⟩
        | some a =>
          cases eb : extractTableName tt with
          | none =>
            have hs : ∃ u v, m2 = u ++ v ∧ v.map small = c!" with " := by
              refine ⟨m2.take 17, m2.drop 17, (List.take_append_drop _ _).symm, ?_⟩
              rw [List.map_drop, hm2]; decide
            obtain ⟨u, v, rfl, hv⟩ := hs
            refine target (pre := m1 ++ (tn ++ u)) (tt := tt) (rest := g3 ++ r3) (m := v) (m2 := m3) ?_ hv hm3 eb
            rw [e1, e2, e3]; simp
          | some b => exact (hn a b ea eb).elim
    · rename_i hun
      cases h
      have h2 : reMatch patRelNoName stmt = none := by
        cases hx : reMatch patRelNoName stmt with
        | none => rfl
        | some gs =>
          exfalso
          rw [patRelNoName_eq] at hx
          obtain ⟨m1, g1, r1, gs1, e1, hm1, -, ⟨m2, g2, r2, gs2, e2, hm2, -, ⟨m3, g3, r3, gs3, e3, hm3, -, q4, q3⟩, q2⟩, q1⟩ := caught (by decide) hx
          simp [Caught] at q1 q2 q3 q4
          rw [← patRelNoName_eq] at hx
          refine hun g1 g2 g3 ?_
          rw [hx, q1, q2, q3, q4]
      rw [patRel_eq] at h1
      rw [patRelNoName_eq] at h2
      exact .notFound (w := .relationship) hw (.relationship (not_shaped rfl (by decide) h1) (not_shaped rfl (by decide) h2))

theorem told_true {schema stmt : Str} {db db' : Database} {ms : List Report} (hp : parseStatementTold schema db stmt = .ok (db', ms)) : ∀ m ∈ ms, TrueReport stmt db m := by
  intro m hm
  unfold parseStatementTold at hp
  simp only at hp
  split at hp
  · cases hp; cases hm
  split at hp
  · unfold parseCreateTableTold at hp
    simp only [mkTable, bind, Except.bind, unbracket] at hp
    rw [hasSub_lower_ub (by decide)] at hp
    cases e : addColumnsOf ⟨getTableName (stmt.map ub), schema, [], none, [], [], []⟩ (stmt.map ub) with
    | error x => rw [e] at hp; cases hp
    | ok t =>
    rw [e] at hp
    simp only [Except.ok.injEq, Prod.mk.injEq] at hp
    obtain ⟨-, rfl⟩ := hp
    split at hm
    · rename_i hw
      exact hash_true (hasSub_not_lacks.1 hw) hm
    · cases hm
  split at hp
  · split at hp
    · rename_i hw
      have hw := hasSub_not_lacks.1 hw
      simp only [Except.ok.injEq] at hp
      have h2 : (addPrimaryKeyTold db stmt).2 = ms := by rw [hp]
      rw [← h2] at hm
      unfold addPrimaryKeyTold at hm
      split at hm
      · rename_i hmm
        split at hm
        · rename_i hn
          simp only [List.mem_singleton] at hm
          subst hm; exact .failed (w := .primaryKey) hw (no_primary hmm hn)
        · split at hm
          · simp at hm
          · rename_i g
            simp at hm; subst hm; exact .noTable hw (no_table.1 g)
      · rename_i hno
        simp at hm; subst hm
        refine .notFound (w := .primaryKey) hw (.primary ?_)
        have h1 : reMatch patPK stmt = none := by
          cases hx : reMatch patPK stmt with
          | none => rfl
          | some gs =>
            exfalso
            rw [patPK_eq] at hx
            obtain ⟨m1, g1, r1, gs1, e1, hm1, -, ⟨m2, g2, r2, gs2, e2, hm2, -, ⟨m3, g3, r3, gs3, e3, hm3, -, ⟨m4, g4, r4, gs4, e4, hm4, -,
              ⟨m5, g5, r5, gs5, e5, hm5, -, q6, q5⟩, q4⟩, q3⟩, q2⟩, q1⟩ := caught (by decide) hx
            simp [Caught] at q1 q2 q3 q4 q5 q6
            rw [← patPK_eq] at hx
            refine hno g1 g4 ?_
            rw [hx, q1, q2, q3, q4, q5, q6]
        rw [patPK_eq] at h1
        exact not_shaped rfl (by decide) h1
    · split at hp
      · rename_i hw
        have hw := hasSub_not_lacks.1 hw
        simp only [Except.ok.injEq] at hp
        have h2 : (addForeignKeyTold db stmt).2 = ms := by rw [hp]
        rw [← h2] at hm
        unfold addForeignKeyTold at hm
        split at hm
        · exact told_constraints_true hw (fun c hc => piece_tail hc) hm
        · rename_i hno
          simp only [List.mem_singleton] at hm
          subst hm
          refine .failed (w := .foreignKey) hw (.noAdd ?_)
          have h1 : reMatch patAdd stmt = none := by
            cases hx : reMatch patAdd stmt with
            | none => rfl
            | some gs =>
              exfalso
              rw [patAdd_eq] at hx
              obtain ⟨m1, g1, r1, gs1, e1, hm1, -, ⟨m2, g2, r2, gs2, e2, hm2, -, q3, q2⟩, q1⟩ := caught (by decide) hx
              simp [Caught] at q1 q2 q3
              rw [← patAdd_eq] at hx
              refine hno g1 ?_
              rw [hx, q1, q2, q3]
          rw [patAdd_eq] at h1
          exact not_shaped rfl (by decide) h1
      · split at hp
        · rename_i hw
          have hw := hasSub_not_lacks.1 hw
          simp only [Except.ok.injEq] at hp
          have h2 : (addRelationshipTold db stmt).2 = ms := by rw [hp]
          rw [← h2] at hm
          unfold addRelationshipTold at hm
          split at hm
          · rename_i x hx
            simp only [List.mem_singleton] at hm
            subst hm
            exact relationship_true hw hx
          · split at hm
            · rename_i g
              simp at hm; subst hm; exact .noTable hw (no_table.1 g)
            · split at hm
              · simp at hm
              · rename_i hx
                cases hx
        · split at hp
          · rename_i hw
            have hw := hasSub_not_lacks.1 hw
            simp only [Except.ok.injEq] at hp
            have h2 : (addShardKeyTold db).2 = ms := by rw [hp]
            rw [← h2] at hm
            unfold addShardKeyTold at hm
            split at hm
            · simp at hm
            · rename_i g
              simp at hm; subst hm; exact .noTable hw (no_table.1 g)
          · cases hp; cases hm
  · cases hp; cases hm

/-! ## CREATE TABLE -/

theorem addField_shard {acc acc' : Table × List Column} {rf : Str} (h : addField acc rf = .ok acc') : acc'.1.shard = acc.1.shard ∧ acc'.1.name = acc.1.name := by
  unfold addField at h
  simp only at h
  split at h
  · split at h <;> cases h <;> exact ⟨rfl, rfl⟩
  · split at h
    · cases h
    · cases h; exact ⟨rfl, rfl⟩

theorem addFields_shard : ∀ {l : List Str} {acc acc' : Table × List Column}, l.foldlM addField acc = .ok acc' → acc'.1.shard = acc.1.shard ∧ acc'.1.name = acc.1.name
  | [], acc, acc', h => by cases h; exact ⟨rfl, rfl⟩
  | rf :: l, acc, acc', h => by
    rw [List.foldlM_cons] at h
    cases e : addField acc rf with
    | error x => rw [e] at h; cases h
    | ok a =>
      rw [e] at h
      have h1 := addField_shard e
      have h2 := addFields_shard (l := l) h
      exact ⟨h2.1.trans h1.1, h2.2.trans h1.2⟩

theorem addColumns_shard (cs : List Column) : ∀ (t : Table), (t.addColumns cs).shard = t.shard := by
  unfold Table.addColumns
  induction cs with
  | nil => intro t; rfl
  | cons c cs ih => intro t; rw [List.foldl_cons, ih]; rfl

theorem addColumnsOf_shard {t t' : Table} {stmt : Str} (h : addColumnsOf t stmt = .ok t') : t'.shard = t.shard := by
  unfold addColumnsOf at h
  cases e : (rawFields stmt).foldlM addField (t, []) with
  | error x => rw [e] at h; cases h
  | ok a =>
    rw [e] at h
    simp only [bind, Except.bind] at h
    cases h
    rw [addColumns_shard]
    exact (addFields_shard e).1

theorem addHashKeyTold_iff {t : Table} (ht : t.shard = none) (stmt : Str) : (addHashKeyTold t stmt).2 = [] ↔ (addHashKeyTold t stmt).1.shard ≠ none := by
  unfold addHashKeyTold
  split
  · split <;> simp [ht]
  · simp [ht]

theorem told_create {schema stmt : Str} {db db' : Database} {ms : List Report} (h : parseCreateTableTold schema db stmt = .ok (db', ms)) :
    ∃ t, TableOf db' t.name t ∧ (Lacks c!"partition by hash" stmt → ms = [] ∧ t.shard = none) ∧
      (¬ Lacks c!"partition by hash" stmt → (ms = [] ↔ t.shard ≠ none)) := by
  unfold parseCreateTableTold at h
  simp only [mkTable, bind, Except.bind, unbracket] at h
  rw [hasSub_lower_ub (by decide)] at h
  cases e : addColumnsOf ⟨getTableName (stmt.map ub), schema, [], none, [], [], []⟩ (stmt.map ub) with
  | error x => rw [e] at h; cases h
  | ok t =>
    rw [e] at h
    have hs := addColumnsOf_shard e
    simp only at hs
    simp only [Except.ok.injEq, Prod.mk.injEq] at h
    obtain ⟨rfl, rfl⟩ := h
    refine ⟨_, Dict.mem_of_get? (Dict.get?_set_self _ _ _), ?_, ?_⟩
    · intro hl
      rw [hasSub_without hl]
      exact ⟨rfl, hs⟩
    · intro hl
      rw [hasSub_not_lacks.2 hl, if_pos rfl]
      exact addHashKeyTold_iff hs _

end Verif
