import Verif.Validator
import Verif.Lemmas.Dict
import Verif.Spec.WellFormed
/-
The validator adds exactly the defects of the specification.
-/

namespace Verif
open Verif.Spec

/-- Model level of a severity. -/
def sevLevel : Severity → Level
  | .warning => .warning
  | .error => .error

/-- `r'` extends `r` by exactly the issues in `P`. -/
def Ext (r r' : ValidationResult) (P : Str × Level → Prop) : Prop :=
  (∀ x, x ∈ r'.issues ↔ x ∈ r.issues ∨ P x) ∧
  ((r.isValid = true ↔ r.issues = []) → (r'.isValid = true ↔ r'.issues = []))

theorem Ext.refl (r : ValidationResult) : Ext r r (fun _ => False) := ⟨by simp, id⟩

theorem Ext.mono {r r' : ValidationResult} {P Q : Str × Level → Prop} (h : Ext r r' P) (hpq : ∀ x, P x ↔ Q x) :
    Ext r r' Q := ⟨fun x => by rw [h.1, hpq], h.2⟩

theorem Ext.trans {r1 r2 r3 : ValidationResult} {P Q : Str × Level → Prop} (h1 : Ext r1 r2 P) (h2 : Ext r2 r3 Q) :
    Ext r1 r3 (fun x => P x ∨ Q x) :=
  ⟨fun x => by rw [h2.1, h1.1, or_assoc], fun h => h2.2 (h1.2 h)⟩

theorem Ext.add (r : ValidationResult) (m : Str) (l : Level) : Ext r (r.addIssue m l) (fun x => x = (m, l)) := by
  refine ⟨fun x => by simp [ValidationResult.addIssue], fun _ => by simp [ValidationResult.addIssue]⟩

theorem Ext.foldl {α : Type} {f : ValidationResult → α → ValidationResult} {P : α → Str × Level → Prop}
    (h : ∀ r a, Ext r (f r a) (P a)) (l : List α) (r : ValidationResult) :
    Ext r (l.foldl f r) (fun x => ∃ a ∈ l, P a x) := by
  induction l generalizing r with
  | nil => exact (Ext.refl r).mono (by simp)
  | cons a l ih => exact ((h r a).trans (ih (f r a))).mono (by simp)

theorem Ext.foldlM {α : Type} {f : ValidationResult → α → Except PyErr ValidationResult}
    {P : α → Str × Level → Prop} (l : List α) (h : ∀ r, ∀ a ∈ l, ∃ r', f r a = .ok r' ∧ Ext r r' (P a))
    (r : ValidationResult) : ∃ r', l.foldlM f r = .ok r' ∧ Ext r r' (fun x => ∃ a ∈ l, P a x) := by
  induction l generalizing r with
  | nil => exact ⟨r, rfl, (Ext.refl r).mono (by simp)⟩
  | cons a l ih =>
    obtain ⟨r1, h1, e1⟩ := h r a (by simp)
    obtain ⟨r2, h2, e2⟩ := ih (fun r b hb => h r b (by simp [hb])) r1
    refine ⟨r2, ?_, (e1.trans e2).mono (by simp)⟩
    simp [List.foldlM_cons, h1, bind, Except.bind, h2]

theorem foldlM_ok_step {α β : Type} {f : β → α → Except PyErr β} (l : List α) (b b' : β)
    (h : l.foldlM f b = .ok b') : ∀ a ∈ l, ∃ x y, f x a = .ok y := by
  induction l generalizing b with
  | nil => simp
  | cons a l ih =>
    simp only [List.foldlM_cons, bind, Except.bind] at h
    intro c hc
    split at h
    · simp at h
    · rename_i v hv
      rcases List.mem_cons.1 hc with rfl | hc
      · exact ⟨b, v, hv⟩
      · exact ih _ h c hc

/-- Text of an issue: prefix with the names of database and table. -/
def issueText (db : Database) (t : Table) (m : Str) : Str :=
  c!"database " ++ db.name ++ c!", table " ++ t.name ++ c!":  " ++ m

theorem Ext.vi (db : Database) (t : Table) (r : ValidationResult) (m : Str) (l : Level) :
    Ext r (addVI db t r m l) (fun x => x = (issueText db t m, l)) := Ext.add r _ l

/-- Conditional issue. -/
theorem Ext.viIf (db : Database) (t : Table) (r : ValidationResult) (m : Str) (l : Level) (p : Prop) [Decidable p] :
    Ext r (if p then addVI db t r m l else r) (fun x => p ∧ x = (issueText db t m, l)) := by
  by_cases h : p
  · simp only [h, if_true]; exact (Ext.vi db t r m l).mono (by simp)
  · simp only [h, if_false]; exact (Ext.refl r).mono (by simp)

theorem getColumn_none_iff (t : Table) (n : Str) : t.getColumn n = none ↔ ¬ ∃ c, ColumnOf t n c := by
  unfold Table.getColumn ColumnOf
  rw [Dict.get?_eq_none_iff]
  simp [Dict.keys]

theorem getColumn_some_iff {t : Table} (h : (t.cols.map Prod.fst).Nodup) (n : Str) (c : Column) :
    t.getColumn n = some c ↔ ColumnOf t n c := (Dict.mem_iff_get? h).symm

theorem getTable_none_iff (db : Database) (n : Str) : db.getTable n = none ↔ ¬ ∃ u, TableOf db n u := by
  unfold Database.getTable TableOf
  rw [Dict.get?_eq_none_iff]
  simp [Dict.keys]

theorem getTable_some_iff {db : Database} (h : (db.tables.map Prod.fst).Nodup) (n : Str) (t : Table) :
    db.getTable n = some t ↔ TableOf db n t := (Dict.mem_iff_get? h).symm

theorem joinS_intersperse (sep : Str) (l : List Str) : joinS sep l = (l.intersperse sep).flatten := by
  induction l with
  | nil => rfl
  | cons a l ih =>
    cases l with
    | nil => simp [joinS]
    | cons b l => simp [joinS, ih]

theorem hex_eq : ∀ n < 128, (if n < 16 then c!"0" else []) ++ Nat.toDigits 16 n =
    ["0123456789abcdef".toList.getD (n / 16) '?', "0123456789abcdef".toList.getD (n % 16) '?'] := by decide +kernel

theorem shownChar_other {q c : Char} (h1 : c ≠ '\\') (h2 : c ≠ '\n') (h3 : c ≠ '\r') (h4 : c ≠ '\t') : shownChar q c =
    if c = q then ['\\', q]
    else if c.toNat < 32 ∨ c.toNat = 127 then ['\\', 'x', "0123456789abcdef".toList.getD (c.toNat / 16) '?', "0123456789abcdef".toList.getD (c.toNat % 16) '?']
    else [c] := by
  unfold shownChar
  split
  · exact absurd rfl h1
  · exact absurd rfl h2
  · exact absurd rfl h3
  · exact absurd rfl h4
  · rfl

theorem reprChar_eq (q c : Char) (hq : q = '"' ∨ q = '\'') : reprChar q c = shownChar q c := by
  by_cases h1 : c = '\\'
  · subst h1; rcases hq with rfl | rfl <;> decide
  by_cases h2 : c = '\n'
  · subst h2; rcases hq with rfl | rfl <;> decide
  by_cases h3 : c = '\r'
  · subst h3; rcases hq with rfl | rfl <;> decide
  by_cases h4 : c = '\t'
  · subst h4; rcases hq with rfl | rfl <;> decide
  rw [shownChar_other h1 h2 h3 h4]
  unfold reprChar
  by_cases e : c = q
  · subst e; simp
  · simp only [beq_iff_eq, Bool.or_eq_true, e, h1, or_self, if_false, h2, h3, h4, decide_eq_true_eq]
    split
    · rename_i hc
      rw [List.append_assoc, hex_eq _ (by omega)]
      rfl
    · rfl

theorem pyRepr_eq (s : Str) : pyRepr s = showName s := by
  unfold pyRepr showName
  by_cases h : '\'' ∈ s ∧ '"' ∉ s
  · rw [if_pos h, if_pos (by simpa using h)]
    dsimp only
    rw [List.flatMap_def]
    congr 3
    exact List.map_congr_left (fun c _ => reprChar_eq _ c (.inl rfl))
  · rw [if_neg h, if_neg (by simpa using h)]
    dsimp only
    rw [List.flatMap_def]
    congr 3
    exact List.map_congr_left (fun c _ => reprChar_eq _ c (.inr rfl))

theorem reprList_eq (l : List Str) : reprList l = showNames l := by
  simp only [reprList, showNames, joinS_intersperse, funext pyRepr_eq]

theorem isVarchar_iff (ty : Str) : isVarchar ty = true ↔ Varchar ty := by
  simp only [isVarchar, startsWith, List.isPrefixOf_iff_prefix, Varchar]
  exact ⟨fun ⟨r, h⟩ => ⟨r, h.symm⟩, fun ⟨r, h⟩ => ⟨r, h.symm⟩⟩

theorem isVarchar_take (ty : Str) : isVarchar ty = true ↔ ty.take 7 = c!"VARCHAR" := by
  rw [isVarchar_iff]
  constructor
  · rintro ⟨r, rfl⟩; simp
  · intro h; exact ⟨ty.drop 7, by rw [← h, List.take_append_drop]⟩

/-- Defects by area, used to assemble the exact characterisation. -/
def issueOf (db : Database) (t : Table) (D : Str → Severity → Prop) (x : Str × Level) : Prop :=
  ∃ m s, D m s ∧ x = (issueText db t m, sevLevel s)

theorem ext_columnTypes (db : Database) (t : Table) (r : ValidationResult) :
    Ext r (validateColumnTypes db t r) (fun x => ∃ n c, ColumnOf t n c ∧ c.type = c!"UNKNOWN" ∧
      x = (issueText db t (c!"column " ++ c.name ++ c!" is of type UNKNOWN."), .warning)) := by
  unfold validateColumnTypes
  refine (Ext.foldl (P := fun c x => c.type = c!"UNKNOWN" ∧
      x = (issueText db t (c!"column " ++ c.name ++ c!" is of type UNKNOWN."), .warning))
    (fun r c => Ext.viIf db t r _ _ (c.type = c!"UNKNOWN")) t.cols.vals r).mono ?_
  intro x
  simp only [Dict.vals, List.mem_map, ColumnOf]
  constructor
  · rintro ⟨c, ⟨p, hp, rfl⟩, h1, h2⟩; exact ⟨p.1, p.2, hp, h1, h2⟩
  · rintro ⟨n, c, hp, h1, h2⟩; exact ⟨c, ⟨(n, c), hp, rfl⟩, h1, h2⟩

theorem ext_primaryKey (db : Database) (t : Table) (r : ValidationResult) :
    Ext r (validatePrimaryKey db t r) (fun x => ∃ k ∈ t.pk, (¬ ∃ c, ColumnOf t k c) ∧
      x = (issueText db t (c!"column " ++ k ++ c!" in primary key does not exist in the the table."), .error)) := by
  unfold validatePrimaryKey
  refine (Ext.foldl (P := fun k x => (¬ ∃ c, ColumnOf t k c) ∧
      x = (issueText db t (c!"column " ++ k ++ c!" in primary key does not exist in the the table."), .error))
      (fun r k => ?_) t.pk r)
  cases hg : t.getColumn k with
  | none =>
    have := (getColumn_none_iff t k).1 hg
    exact (Ext.vi db t r _ _).mono (fun x => by simp [this])
  | some c =>
    have : ¬ ¬ ∃ c, ColumnOf t k c := fun h => by rw [(getColumn_none_iff t k).2 h] at hg; simp at hg
    exact (Ext.refl r).mono (fun x => by simp only [this, false_and])

theorem ext_shard (db : Database) (t : Table) (r : ValidationResult) :
    Ext r (validateShardKeys db t r) (fun x => ∃ sk k, t.shard = some sk ∧ k ∈ sk.keys ∧
      (((¬ ∃ c, ColumnOf t k c) ∧
        x = (issueText db t (c!"column " ++ k ++ c!" in shard key does not exist in the the table."), .error)) ∨
       ((t.pk ≠ [] ∧ k ∉ t.pk) ∧
        x = (issueText db t (c!"column " ++ k ++ c!" in shard key not in primary key " ++ showNames t.pk), .error)))) := by
  unfold validateShardKeys
  cases hs : t.shard with
  | none => exact (Ext.refl r).mono (by simp)
  | some sk =>
    refine (Ext.foldl (P := fun k x => ((¬ ∃ c, ColumnOf t k c) ∧
        x = (issueText db t (c!"column " ++ k ++ c!" in shard key does not exist in the the table."), .error)) ∨
       ((t.pk ≠ [] ∧ k ∉ t.pk) ∧
        x = (issueText db t (c!"column " ++ k ++ c!" in shard key not in primary key " ++ showNames t.pk), .error)))
      (fun r k => ?_) sk.keys r).mono ?_
    · have h1 : Ext r (match t.getColumn k with
          | none => addVI db t r (c!"column " ++ k ++ c!" in shard key does not exist in the the table.") .error
          | some _ => r) (fun x => (¬ ∃ c, ColumnOf t k c) ∧
        x = (issueText db t (c!"column " ++ k ++ c!" in shard key does not exist in the the table."), .error)) := by
        cases hg : t.getColumn k with
        | none =>
          have := (getColumn_none_iff t k).1 hg
          exact (Ext.vi db t r _ _).mono (fun x => by simp [this])
        | some c =>
          have : ¬ ¬ ∃ c, ColumnOf t k c := fun h => by rw [(getColumn_none_iff t k).2 h] at hg; simp at hg
          exact (Ext.refl r).mono (fun x => by simp only [this, false_and])
      have h2 := Ext.viIf db t (match t.getColumn k with
          | none => addVI db t r (c!"column " ++ k ++ c!" in shard key does not exist in the the table.") .error
          | some _ => r) (c!"column " ++ k ++ c!" in shard key not in primary key " ++ reprList t.pk) .error
          (t.pk ≠ [] ∧ ¬ t.pk.contains k = true)
      refine (h1.trans h2).mono ?_
      intro x; simp only [reprList_eq, List.contains_iff_mem]
    · intro x
      constructor
      · rintro ⟨k, hk, h⟩; exact ⟨sk, k, rfl, hk, h⟩
      · rintro ⟨sk', k, hsk, hk, h⟩; simp at hsk; subst hsk; exact ⟨k, hk, h⟩

theorem ext_rels (db : Database) (t : Table) (r : ValidationResult) :
    Ext r (validateRelationships db t r) (fun x => ∃ m rel, (m, rel) ∈ t.rels ∧
      ((rel.fromTable ≠ t.name ∧
        x = (issueText db t (c!"from table " ++ t.name ++ c!" doesn't exist in relationship " ++ rel.name ++ c!"."), .error)) ∨
       ((¬ ∃ u, TableOf db rel.toTable u) ∧
        x = (issueText db t (c!"to table None doesn't exist in relationship " ++ rel.name ++ c!"."), .error)))) := by
  unfold validateRelationships
  refine (Ext.foldl (P := fun rel x => (rel.fromTable ≠ t.name ∧
        x = (issueText db t (c!"from table " ++ t.name ++ c!" doesn't exist in relationship " ++ rel.name ++ c!"."), .error)) ∨
       ((¬ ∃ u, TableOf db rel.toTable u) ∧
        x = (issueText db t (c!"to table None doesn't exist in relationship " ++ rel.name ++ c!"."), .error)))
      (fun r rel => ?_) t.rels.vals r).mono ?_
  · unfold validateRel
    refine (Ext.viIf db t r _ _ _).trans ?_
    cases hg : db.getTable rel.toTable with
    | none =>
      have := (getTable_none_iff db _).1 hg
      exact (Ext.vi db t _ _ _).mono (fun x => by simp [this])
    | some c =>
      have : ¬ ¬ ∃ u, TableOf db rel.toTable u := fun h => by rw [(getTable_none_iff db _).2 h] at hg; simp at hg
      exact (Ext.refl _).mono (fun x => by simp only [this, false_and])
  · intro x
    simp only [Dict.vals, List.mem_map]
    constructor
    · rintro ⟨rel, ⟨p, hp, rfl⟩, h⟩; exact ⟨p.1, p.2, hp, h⟩
    · rintro ⟨m, rel, hp, h⟩; exact ⟨rel, ⟨(m, rel), hp, rfl⟩, h⟩

/-- Issues of one key position. -/
def fkColIssue (db : Database) (t : Table) (fk : FK) (u : Table) (i : Nat) (x : Str × Level) : Prop :=
  ∃ a b, fk.fromKeys[i]? = some a ∧ fk.toKeys[i]? = some b ∧
    ((b ∉ u.pk ∧ x = (issueText db t (c!"foreign key " ++ fk.name ++ c!" column " ++ b ++
        c!" isn't in primary key for " ++ u.name), .error)) ∨
     ((¬ ∃ c, ColumnOf t a c) ∧ x = (issueText db t (c!"foreign key " ++ fk.name ++ c!" missing from_column " ++ a ++
        c!" from table " ++ t.name), .error)) ∨
     ((¬ ∃ c, ColumnOf u b c) ∧ x = (issueText db t (c!"foreign key " ++ fk.name ++ c!" missing to_column " ++ b ++
        c!" from table " ++ t.name), .error)) ∨
     (∃ ca cb, ColumnOf t a ca ∧ ColumnOf u b cb ∧ ¬ TypesMatch ca.type cb.type ∧
        x = (issueText db t (c!"foreign key " ++ fk.name ++ c!" column " ++
          (if ca.type.take 7 = c!"VARCHAR" then b else ca.name) ++
        c!" type " ++ ca.type ++ c!" doesn't match type " ++ cb.type ++ c!" for " ++ u.name ++ c!" column " ++
        cb.name), .error)))

theorem ext_fkCol (db : Database) (t : Table) (fk : FK) (u : Table) (i : Nat)
    (ht : (t.cols.map Prod.fst).Nodup) (hu : (u.cols.map Prod.fst).Nodup)
    (hi : i < fk.fromKeys.length) (hi2 : i < fk.toKeys.length) (r : ValidationResult) :
    ∃ r', validateFKCol db t fk u r i = .ok r' ∧ Ext r r' (fkColIssue db t fk u i) := by
  unfold validateFKCol
  have ha : fk.fromKeys[i]? = some fk.fromKeys[i] := List.getElem?_eq_getElem hi
  have hb : fk.toKeys[i]? = some fk.toKeys[i] := List.getElem?_eq_getElem hi2
  generalize hga : fk.fromKeys[i] = a at ha
  generalize hgb : fk.toKeys[i] = b at hb
  simp only [ha, hb]
  have e1 := Ext.viIf db t r (c!"foreign key " ++ fk.name ++ c!" column " ++ b ++ c!" isn't in primary key for " ++
          u.name) .error (¬ u.pk.contains b = true)
  generalize (if ¬ u.pk.contains b = true then _ else r) = r1 at e1
  have e2 := Ext.viIf db t r1 (c!"foreign key " ++ fk.name ++ c!" missing from_column " ++ a ++ c!" from table " ++
          t.name) .error (t.getColumn a = none)
  generalize (if t.getColumn a = none then _ else r1) = r2 at e2
  have e3 := Ext.viIf db t r2 (c!"foreign key " ++ fk.name ++ c!" missing to_column " ++ b ++ c!" from table " ++
          t.name) .error (u.getColumn b = none)
  generalize (if u.getColumn b = none then _ else r2) = r3 at e3
  have e := e1.trans (e2.trans e3)
  simp only [List.contains_iff_mem, getColumn_none_iff] at e
  cases hca : t.getColumn a with
  | none =>
    refine ⟨r3, rfl, e.mono ?_⟩
    intro x
    unfold fkColIssue
    have hn := (getColumn_none_iff t a).1 hca
    constructor
    · rintro (h | h | h)
      · exact ⟨a, b, ha, hb, Or.inl h⟩
      · exact ⟨a, b, ha, hb, Or.inr (Or.inl h)⟩
      · exact ⟨a, b, ha, hb, Or.inr (Or.inr (Or.inl h))⟩
    · rintro ⟨a', b', ha', hb', h⟩
      rw [ha] at ha'; rw [hb] at hb'; simp at ha' hb'; subst ha'; subst hb'
      rcases h with h | h | h | ⟨ca, cb, h, _⟩
      · exact Or.inl h
      · exact Or.inr (Or.inl h)
      · exact Or.inr (Or.inr h)
      · exact absurd ⟨ca, h⟩ hn
  | some ca =>
    cases hcb : u.getColumn b with
    | none =>
      refine ⟨r3, rfl, e.mono ?_⟩
      intro x
      unfold fkColIssue
      have hn := (getColumn_none_iff u b).1 hcb
      constructor
      · rintro (h | h | h)
        · exact ⟨a, b, ha, hb, Or.inl h⟩
        · exact ⟨a, b, ha, hb, Or.inr (Or.inl h)⟩
        · exact ⟨a, b, ha, hb, Or.inr (Or.inr (Or.inl h))⟩
      · rintro ⟨a', b', ha', hb', h⟩
        rw [ha] at ha'; rw [hb] at hb'; simp at ha' hb'; subst ha'; subst hb'
        rcases h with h | h | h | ⟨ca, cb, _, h, _⟩
        · exact Or.inl h
        · exact Or.inr (Or.inl h)
        · exact Or.inr (Or.inr h)
        · exact absurd ⟨cb, h⟩ hn
    | some cb =>
      have hA := (getColumn_some_iff ht a ca).1 hca
      have hB := (getColumn_some_iff hu b cb).1 hcb
      have uniqA : ∀ c, ColumnOf t a c → c = ca := fun c hc => by
        have := (getColumn_some_iff ht a c).2 hc; rw [hca] at this; simpa using this.symm
      have uniqB : ∀ c, ColumnOf u b c → c = cb := fun c hc => by
        have := (getColumn_some_iff hu b c).2 hc; rw [hcb] at this; simpa using this.symm
      -- the issue of the type comparison
      have key : ∃ r', (if ¬ isVarchar ca.type = true ∧ ca.type ≠ cb.type then
            (Except.ok (addVI db t r3 (typeMismatch fk ca.name ca.type cb.type u cb.name) .error) : Except PyErr _)
          else if (isVarchar ca.type = true ∧ ¬ isVarchar cb.type = true) ∨
              (isVarchar cb.type = true ∧ ¬ isVarchar ca.type = true) then
            .ok (addVI db t r3 (typeMismatch fk b ca.type cb.type u cb.name) .error)
          else .ok r3) = .ok r' ∧
          Ext r3 r' (fun x => ¬ TypesMatch ca.type cb.type ∧
            x = (issueText db t (typeMismatch fk (if ca.type.take 7 = c!"VARCHAR" then b else ca.name) ca.type cb.type
              u cb.name), .error)) := by
        simp only [isVarchar_take]
        have hm : TypesMatch ca.type cb.type ↔ (ca.type = cb.type ∨ (ca.type.take 7 = c!"VARCHAR" ∧
            cb.type.take 7 = c!"VARCHAR")) := by
          simp only [TypesMatch, ← isVarchar_iff, isVarchar_take]
        rw [hm]
        by_cases p : ca.type.take 7 = c!"VARCHAR"
        · by_cases q : cb.type.take 7 = c!"VARCHAR"
          · exact ⟨r3, by simp [p, q], (Ext.refl r3).mono (by simp [p, q])⟩
          · have hne : ca.type ≠ cb.type := fun e => q (e ▸ p)
            exact ⟨_, by simp [p, q]; rfl, (Ext.vi db t r3 _ _).mono (by simp [p, q, hne])⟩
        · by_cases q : ca.type = cb.type
          · have q' : ¬ cb.type.take 7 = c!"VARCHAR" := q ▸ p
            exact ⟨r3, by simp [q', q], (Ext.refl r3).mono (by simp [q])⟩
          · exact ⟨_, by simp [p, q]; rfl, (Ext.vi db t r3 _ _).mono (by simp [p, q])⟩
      obtain ⟨r', hr', er'⟩ := key
      refine ⟨r', hr', (e.trans er').mono ?_⟩
      intro x
      unfold fkColIssue
      constructor
      · rintro ((h | h | h) | h)
        · exact ⟨a, b, ha, hb, Or.inl h⟩
        · exact ⟨a, b, ha, hb, Or.inr (Or.inl h)⟩
        · exact ⟨a, b, ha, hb, Or.inr (Or.inr (Or.inl h))⟩
        · exact ⟨a, b, ha, hb, Or.inr (Or.inr (Or.inr ⟨ca, cb, hA, hB, h.1, h.2⟩))⟩
      · rintro ⟨a', b', ha', hb', h⟩
        rw [ha] at ha'; rw [hb] at hb'; simp at ha' hb'; subst ha'; subst hb'
        rcases h with h | h | h | ⟨ca', cb', h1, h2, h3, h4⟩
        · exact Or.inl (Or.inl h)
        · exact Or.inl (Or.inr (Or.inl h))
        · exact Or.inl (Or.inr (Or.inr h))
        · rw [uniqA ca' h1, uniqB cb' h2] at h3 h4
          exact Or.inr ⟨h3, h4⟩

/-- Issues of one foreign key. -/
def fkIssue (db : Database) (t : Table) (fk : FK) (x : Str × Level) : Prop :=
  ((¬ ∃ u, TableOf db fk.toTable u) ∧
    x = (issueText db t (c!"table " ++ fk.toTable ++ c!" doesn't exist for foreign key " ++ fk.name), .error)) ∨
  ∃ u, TableOf db fk.toTable u ∧
    ((fk.fromKeys.length ≠ fk.toKeys.length ∧
      x = (issueText db t (c!"FK " ++ fk.name ++ c!" doesn't have the matching column count from and to keys"), .error)) ∨
     (fk.toKeys.length ≠ u.pk.length ∧
      x = (issueText db t (c!"FK " ++ fk.name ++ c!" doesn't match number of columns in primary key " ++
        showNames u.pk), .error)) ∨
     ∃ i, i < fk.fromKeys.length ∧ fkColIssue db t fk u i x)

theorem ext_fk {db : Database} (hw : WellKeyed db) {n : Str} {t : Table} (ht : TableOf db n t) (fk : FK)
    (hlen : (∃ u, TableOf db fk.toTable u) → fk.fromKeys.length ≤ fk.toKeys.length) (r : ValidationResult) :
    ∃ r', validateFK db t r fk = .ok r' ∧ Ext r r' (fkIssue db t fk) := by
  unfold validateFK
  cases hg : db.getTable fk.toTable with
  | none =>
    have hn := (getTable_none_iff db _).1 hg
    refine ⟨_, rfl, (Ext.vi db t r _ _).mono ?_⟩
    intro x
    constructor
    · intro h; exact Or.inl ⟨hn, h⟩
    · rintro (⟨_, h⟩ | ⟨u, hu, _⟩)
      · exact h
      · exact absurd ⟨u, hu⟩ hn
  | some u =>
    have hu := (getTable_some_iff hw.tables _ u).1 hg
    have uniq : ∀ u', TableOf db fk.toTable u' → u' = u := fun u' h' => by
      have := (getTable_some_iff hw.tables _ u').2 h'; rw [hg] at this; simpa using this.symm
    have hl := hlen ⟨u, hu⟩
    have e1 := Ext.viIf db t r (c!"FK " ++ fk.name ++ c!" doesn't have the matching column count from and to keys")
      .error (fk.fromKeys.length ≠ fk.toKeys.length)
    simp only
    generalize (if fk.fromKeys.length ≠ fk.toKeys.length then _ else r) = r1 at e1
    have e2 := Ext.viIf db t r1 (c!"FK " ++ fk.name ++ c!" doesn't match number of columns in primary key " ++
          reprList u.pk) .error (fk.toKeys.length ≠ u.pk.length)
    generalize (if fk.toKeys.length ≠ u.pk.length then _ else r1) = r2 at e2
    obtain ⟨r', hr', e3⟩ := Ext.foldlM (f := validateFKCol db t fk u) (P := fkColIssue db t fk u)
      (List.range fk.fromKeys.length) (fun r i hi => ext_fkCol db t fk u i (hw.cols n t ht) (hw.cols _ u hu)
        (by simpa using hi) (by simp at hi; omega) r) r2
    refine ⟨r', hr', (e1.trans (e2.trans e3)).mono ?_⟩
    intro x
    rw [reprList_eq]
    unfold fkIssue
    constructor
    · rintro (h | h | ⟨i, hi, h⟩)
      · exact Or.inr ⟨u, hu, Or.inl h⟩
      · exact Or.inr ⟨u, hu, Or.inr (Or.inl h)⟩
      · exact Or.inr ⟨u, hu, Or.inr (Or.inr ⟨i, by simpa using hi, h⟩)⟩
    · rintro (⟨hn, _⟩ | ⟨u', hu', h⟩)
      · exact absurd ⟨u, hu⟩ hn
      · rw [uniq u' hu'] at h
        rcases h with h | h | ⟨i, hi, h⟩
        · exact Or.inl h
        · exact Or.inr (Or.inl h)
        · exact Or.inr (Or.inr ⟨i, by simpa using hi, h⟩)

/-- The foreign keys whose key lists the validator can walk. -/
def FksWalkable (db : Database) (t : Table) : Prop :=
  ∀ m fk, (m, fk) ∈ t.fks → (∃ u, TableOf db fk.toTable u) → fk.fromKeys.length ≤ fk.toKeys.length

theorem ext_fks {db : Database} (hw : WellKeyed db) {n : Str} {t : Table} (ht : TableOf db n t)
    (hlen : FksWalkable db t) (r : ValidationResult) :
    ∃ r', validateForeignKeys db t r = .ok r' ∧ Ext r r' (fun x => ∃ m fk, (m, fk) ∈ t.fks ∧ fkIssue db t fk x) := by
  unfold validateForeignKeys
  obtain ⟨r', hr', e⟩ := Ext.foldlM (f := validateFK db t) (P := fkIssue db t) t.fks.vals
    (fun r fk hfk => by
      simp only [Dict.vals, List.mem_map] at hfk
      obtain ⟨p, hp, rfl⟩ := hfk
      exact ext_fk hw ht p.2 (hlen p.1 p.2 hp) r) r
  refine ⟨r', hr', e.mono ?_⟩
  intro x
  simp only [Dict.vals, List.mem_map]
  constructor
  · rintro ⟨fk, ⟨p, hp, rfl⟩, h⟩; exact ⟨p.1, p.2, hp, h⟩
  · rintro ⟨m, fk, hp, h⟩; exact ⟨fk, ⟨(m, fk), hp, rfl⟩, h⟩

theorem ext_table {db : Database} (hw : WellKeyed db) {n : Str} {t : Table} (ht : TableOf db n t)
    (hlen : FksWalkable db t) (r : ValidationResult) :
    ∃ r', validateTable db r t = .ok r' ∧ Ext r r' (issueOf db t (Defect db t)) := by
  unfold validateTable
  have e1 := ext_columnTypes db t r
  have e2 := ext_primaryKey db t (validateColumnTypes db t r)
  have e3 := ext_shard db t (validatePrimaryKey db t (validateColumnTypes db t r))
  obtain ⟨r4, h4, e4⟩ := ext_fks hw ht hlen (validateShardKeys db t (validatePrimaryKey db t (validateColumnTypes db t r)))
  have e5 := ext_rels db t r4
  refine ⟨validateRelationships db t r4, by simp [h4, bind, Except.bind], ?_⟩
  refine (e1.trans (e2.trans (e3.trans (e4.trans e5)))).mono ?_
  intro x
  unfold issueOf
  constructor
  · rintro (⟨m, c, h1, h2, rfl⟩ | ⟨k, h1, h2, rfl⟩ | ⟨sk, k, h1, h2, h3⟩ | ⟨m, fk, h1, h2⟩ | ⟨m, rel, h1, h2⟩)
    · exact ⟨_, _, .unknownType m c h1 h2, rfl⟩
    · exact ⟨_, _, .pkMissing k h1 h2, rfl⟩
    · rcases h3 with ⟨h3, rfl⟩ | ⟨⟨h3, h4⟩, rfl⟩
      · exact ⟨_, _, .shardMissing sk k h1 h2 h3, rfl⟩
      · exact ⟨_, _, .shardNotPk sk k h1 h2 h3 h4, rfl⟩
    · rcases h2 with ⟨h3, rfl⟩ | ⟨u, hu, h3⟩
      · exact ⟨_, _, .fkNoTable m fk h1 h3, rfl⟩
      · rcases h3 with ⟨h3, rfl⟩ | ⟨h3, rfl⟩ | ⟨i, hi, a, b, ha, hb, h3⟩
        · exact ⟨_, _, .fkArity m fk u h1 hu h3, rfl⟩
        · exact ⟨_, _, .fkPkCount m fk u h1 hu h3, rfl⟩
        · rcases h3 with ⟨h3, rfl⟩ | ⟨h3, rfl⟩ | ⟨h3, rfl⟩ | ⟨ca, cb, hA, hB, h3, rfl⟩
          · exact ⟨_, _, .fkNotPk m fk u i b h1 hu hi hb h3, rfl⟩
          · exact ⟨_, _, .fkFromMissing m fk u a h1 hu (List.mem_of_getElem? ha) h3, rfl⟩
          · exact ⟨_, _, .fkToMissing m fk u i b h1 hu hi hb h3, rfl⟩
          · exact ⟨_, _, .fkTypes m fk u i a b ca cb h1 hu ha hb hA hB h3, rfl⟩
    · rcases h2 with ⟨h3, rfl⟩ | ⟨h3, rfl⟩
      · exact ⟨_, _, .relFrom m rel h1 h3, rfl⟩
      · exact ⟨_, _, .relTo m rel h1 h3, rfl⟩
  · rintro ⟨m, s, hd, rfl⟩
    cases hd with
    | unknownType n c h1 h2 => exact Or.inl ⟨n, c, h1, h2, rfl⟩
    | pkMissing k h1 h2 => exact Or.inr (Or.inl ⟨k, h1, h2, rfl⟩)
    | shardMissing sk k h1 h2 h3 => exact Or.inr (Or.inr (Or.inl ⟨sk, k, h1, h2, Or.inl ⟨h3, rfl⟩⟩))
    | shardNotPk sk k h1 h2 h3 h4 => exact Or.inr (Or.inr (Or.inl ⟨sk, k, h1, h2, Or.inr ⟨⟨h3, h4⟩, rfl⟩⟩))
    | fkNoTable m fk h1 h2 => exact Or.inr (Or.inr (Or.inr (Or.inl ⟨m, fk, h1, Or.inl ⟨h2, rfl⟩⟩)))
    | fkArity m fk u h1 hu h2 => exact Or.inr (Or.inr (Or.inr (Or.inl ⟨m, fk, h1, Or.inr ⟨u, hu, Or.inl ⟨h2, rfl⟩⟩⟩)))
    | fkPkCount m fk u h1 hu h2 =>
      exact Or.inr (Or.inr (Or.inr (Or.inl ⟨m, fk, h1, Or.inr ⟨u, hu, Or.inr (Or.inl ⟨h2, rfl⟩)⟩⟩)))
    | fkNotPk m fk u i b h1 hu hi hb h2 =>
      exact Or.inr (Or.inr (Or.inr (Or.inl ⟨m, fk, h1, Or.inr ⟨u, hu, Or.inr (Or.inr ⟨i, hi, _, b,
        List.getElem?_eq_getElem hi, hb, Or.inl ⟨h2, rfl⟩⟩)⟩⟩)))
    | fkFromMissing m fk u a h1 hu ha h2 =>
      obtain ⟨i, hi⟩ := List.getElem?_of_mem ha
      have hi' : i < fk.fromKeys.length := by
        rcases Nat.lt_or_ge i fk.fromKeys.length with h | h
        · exact h
        · rw [List.getElem?_eq_none h] at hi; simp at hi
      have := hlen m fk h1 ⟨u, hu⟩
      exact Or.inr (Or.inr (Or.inr (Or.inl ⟨m, fk, h1, Or.inr ⟨u, hu, Or.inr (Or.inr ⟨i, hi', a, _,
        hi, List.getElem?_eq_getElem (by omega), Or.inr (Or.inl ⟨h2, rfl⟩)⟩)⟩⟩)))
    | fkToMissing m fk u i b h1 hu hi hb h2 =>
      exact Or.inr (Or.inr (Or.inr (Or.inl ⟨m, fk, h1, Or.inr ⟨u, hu, Or.inr (Or.inr ⟨i, hi, _, b,
        List.getElem?_eq_getElem hi, hb, Or.inr (Or.inr (Or.inl ⟨h2, rfl⟩))⟩)⟩⟩)))
    | fkTypes m fk u i a b ca cb h1 hu ha hb hA hB h2 =>
      have hi' : i < fk.fromKeys.length := by
        rcases Nat.lt_or_ge i fk.fromKeys.length with h | h
        · exact h
        · rw [List.getElem?_eq_none h] at ha; simp at ha
      exact Or.inr (Or.inr (Or.inr (Or.inl ⟨m, fk, h1, Or.inr ⟨u, hu, Or.inr (Or.inr ⟨i, hi', a, b,
        ha, hb, Or.inr (Or.inr (Or.inr ⟨ca, cb, hA, hB, h2, rfl⟩))⟩)⟩⟩)))
    | relFrom m r h1 h2 => exact Or.inr (Or.inr (Or.inr (Or.inr ⟨m, r, h1, Or.inl ⟨h2, rfl⟩⟩)))
    | relTo m r h1 h2 => exact Or.inr (Or.inr (Or.inr (Or.inr ⟨m, r, h1, Or.inr ⟨h2, rfl⟩⟩)))

theorem ext_validate {db : Database} (hw : WellKeyed db) (hlen : ∀ n t, TableOf db n t → FksWalkable db t) :
    ∃ r, db.validate = .ok r ∧
      (∀ x, x ∈ r.issues ↔ ∃ n t, TableOf db n t ∧ issueOf db t (Defect db t) x) ∧
      (r.isValid = true ↔ r.issues = []) := by
  unfold Database.validate
  obtain ⟨r, hr, e⟩ := Ext.foldlM (f := validateTable db) (P := fun t => issueOf db t (Defect db t)) db.iter
    (fun r t ht => by
      simp only [Database.iter, Dict.vals, List.mem_map] at ht
      obtain ⟨p, hp, rfl⟩ := ht
      exact ext_table hw (n := p.1) hp (hlen p.1 p.2 hp) r) ValidationResult.new
  refine ⟨r, hr, ?_, e.2 (by simp [ValidationResult.new])⟩
  intro x
  rw [e.1]
  simp only [ValidationResult.new, List.not_mem_nil, false_or, Database.iter, Dict.vals, List.mem_map]
  constructor
  · rintro ⟨t, ⟨p, hp, rfl⟩, h⟩; exact ⟨p.1, p.2, hp, h⟩
  · rintro ⟨n, t, hp, h⟩; exact ⟨t, ⟨(n, t), hp, rfl⟩, h⟩

/-- If validation does not raise, all key lists it walked were long enough. -/
theorem walkable_of_ok {db : Database} (hw : WellKeyed db) {r : ValidationResult} (h : db.validate = .ok r) :
    ∀ n t, TableOf db n t → FksWalkable db t := by
  intro n t ht m fk hfk ⟨u, hu⟩
  unfold Database.validate at h
  obtain ⟨r1, r2, h1⟩ := foldlM_ok_step _ _ _ h t (List.mem_map.2 ⟨(n, t), ht, rfl⟩)
  unfold validateTable at h1
  simp only [bind, Except.bind] at h1
  split at h1
  · simp at h1
  · rename_i r3 h3
    unfold validateForeignKeys at h3
    obtain ⟨r4, r5, h4⟩ := foldlM_ok_step _ _ _ h3 fk (List.mem_map.2 ⟨(m, fk), hfk, rfl⟩)
    unfold validateFK at h4
    rw [(getTable_some_iff hw.tables _ u).2 hu] at h4
    rcases Nat.lt_or_ge fk.toKeys.length fk.fromKeys.length with hlt | hge
    · exfalso
      obtain ⟨r6, r7, h6⟩ := foldlM_ok_step _ _ _ h4 fk.toKeys.length (by simpa using hlt)
      unfold validateFKCol at h6
      rw [List.getElem?_eq_getElem hlt, List.getElem?_eq_none (Nat.le_refl _)] at h6
      simp at h6
    · exact hge

theorem defect_free_iff {db : Database} (hw : WellKeyed db) :
    (∀ n t, TableOf db n t → ∀ m s, ¬ Defect db t m s) ↔ WellFormed db := by
  have uniq : ∀ {n u u'}, TableOf db n u → TableOf db n u' → u = u' := fun h h' => by
    have a := (getTable_some_iff hw.tables _ _).2 h
    have b := (getTable_some_iff hw.tables _ _).2 h'
    rw [a] at b; simpa using b
  have uniqC : ∀ {n t m c c'}, TableOf db n t → ColumnOf t m c → ColumnOf t m c' → c = c' := fun ht h h' => by
    have a := (getColumn_some_iff (hw.cols _ _ ht) _ _).2 h
    have b := (getColumn_some_iff (hw.cols _ _ ht) _ _).2 h'
    rw [a] at b; simpa using b
  constructor
  · intro h
    constructor
    · intro n t ht m c hc hu; exact h n t ht _ _ (.unknownType m c hc hu)
    · intro n t ht k hk
      exact Classical.byContradiction fun hn => h n t ht _ _ (.pkMissing k hk hn)
    · intro n t ht sk hsk k hk
      refine ⟨Classical.byContradiction fun hn => h n t ht _ _ (.shardMissing sk k hsk hk hn), ?_⟩
      by_cases hp : t.pk = []
      · exact Or.inl hp
      · exact Or.inr (Classical.byContradiction fun hn => h n t ht _ _ (.shardNotPk sk k hsk hk hp hn))
    · intro n t ht m fk hfk
      have hu : ∃ u, TableOf db fk.toTable u :=
        Classical.byContradiction fun hn => h n t ht _ _ (.fkNoTable m fk hfk hn)
      obtain ⟨u, hu⟩ := hu
      have hlen1 : fk.fromKeys.length = fk.toKeys.length :=
        Classical.byContradiction fun hn => h n t ht _ _ (.fkArity m fk u hfk hu hn)
      refine ⟨u, hu, hlen1, Classical.byContradiction fun hn => h n t ht _ _ (.fkPkCount m fk u hfk hu hn), ?_⟩
      intro i a b ha hb
      have hi : i < fk.fromKeys.length := by
        rcases Nat.lt_or_ge i fk.fromKeys.length with h | h
        · exact h
        · rw [List.getElem?_eq_none h] at ha; simp at ha
      refine ⟨Classical.byContradiction fun hn => h n t ht _ _ (.fkNotPk m fk u i b hfk hu hi hb hn), ?_⟩
      have hca : ∃ c, ColumnOf t a c := Classical.byContradiction fun hn =>
        h n t ht _ _ (.fkFromMissing m fk u a hfk hu (List.mem_of_getElem? ha) hn)
      have hcb : ∃ c, ColumnOf u b c := Classical.byContradiction fun hn =>
        h n t ht _ _ (.fkToMissing m fk u i b hfk hu hi hb hn)
      obtain ⟨ca, hca⟩ := hca
      obtain ⟨cb, hcb⟩ := hcb
      exact ⟨ca, cb, hca, hcb, Classical.byContradiction fun hn =>
        h n t ht _ _ (.fkTypes m fk u i a b ca cb hfk hu ha hb hca hcb hn)⟩
    · intro n t ht m r hr
      exact ⟨Classical.byContradiction fun hn => h n t ht _ _ (.relFrom m r hr hn),
        Classical.byContradiction fun hn => h n t ht _ _ (.relTo m r hr hn)⟩
  · intro hwf n t ht m s hd
    cases hd with
    | unknownType n' c h1 h2 => exact hwf.types n t ht n' c h1 h2
    | pkMissing k h1 h2 => exact h2 (hwf.pk n t ht k h1)
    | shardMissing sk k h1 h2 h3 => exact h3 (hwf.shard n t ht sk h1 k h2).1
    | shardNotPk sk k h1 h2 h3 h4 =>
      rcases (hwf.shard n t ht sk h1 k h2).2 with h | h
      · exact h3 h
      · exact h4 h
    | fkNoTable m fk h1 h2 => obtain ⟨u, hu, _⟩ := hwf.fks n t ht m fk h1; exact h2 ⟨u, hu⟩
    | fkArity m fk u h1 hu h2 => obtain ⟨u, hu, h, _⟩ := hwf.fks n t ht m fk h1; exact h2 h
    | fkPkCount m fk u h1 hu h2 =>
      obtain ⟨u', hu', _, h, _⟩ := hwf.fks n t ht m fk h1; rw [uniq hu' hu] at h; exact h2 h
    | fkNotPk m fk u i b h1 hu hi hb h2 =>
      obtain ⟨u', hu', _, _, h⟩ := hwf.fks n t ht m fk h1; rw [uniq hu' hu] at h
      exact h2 (h i _ b (List.getElem?_eq_getElem hi) hb).1
    | fkFromMissing m fk u a h1 hu ha h2 =>
      obtain ⟨u', hu', hl, _, h⟩ := hwf.fks n t ht m fk h1
      obtain ⟨i, hi⟩ := List.getElem?_of_mem ha
      have hi' : i < fk.fromKeys.length := by
        rcases Nat.lt_or_ge i fk.fromKeys.length with h | h
        · exact h
        · rw [List.getElem?_eq_none h] at hi; simp at hi
      obtain ⟨_, ca, _, hca, _⟩ := h i a _ hi (List.getElem?_eq_getElem (by omega))
      exact h2 ⟨ca, hca⟩
    | fkToMissing m fk u i b h1 hu hi hb h2 =>
      obtain ⟨u', hu', _, _, h⟩ := hwf.fks n t ht m fk h1; rw [uniq hu' hu] at h
      obtain ⟨_, _, cb, _, hcb, _⟩ := h i _ b (List.getElem?_eq_getElem hi) hb
      exact h2 ⟨cb, hcb⟩
    | fkTypes m fk u i a b ca cb h1 hu ha hb hA hB h2 =>
      obtain ⟨u', hu', _, _, h⟩ := hwf.fks n t ht m fk h1; rw [uniq hu' hu] at h
      obtain ⟨_, ca', cb', hca, hcb, hm⟩ := h i a b ha hb
      rw [uniqC ht hca hA, uniqC hu hcb hB] at hm
      exact h2 hm
    | relFrom m r h1 h2 => exact h2 (hwf.rels n t ht m r h1).1
    | relTo m r h1 h2 => exact h2 (hwf.rels n t ht m r h1).2

end Verif
