import Verif.Lemmas.ExcelRead
import Verif.Generator
import Mathlib.Data.List.Perm.Basic
import Mathlib.Data.List.Nodup
/-
Lemmas on workbooks that say the same, and on the TQL of a database that went through a workbook.
-/

namespace Verif
open Spec

/-! ## Sheets that say the same -/

theorem cell_none {h row : List XCell} {c : Str} (hc : XCell.text c ∉ h) : cell h row c = .error .key := by
  unfold cell
  rw [(headerIndex_none_iff c h).2 hc]

theorem cell_same {h r h' r' : List XCell} {c : Str} (h1 : XCell.text c ∈ h ↔ XCell.text c ∈ h') (h2 : ∀ v, Under h r c v ↔ Under h' r' c v) :
    cell h r c = cell h' r' c := by
  by_cases hc : XCell.text c ∈ h
  · obtain ⟨v, hv⟩ := cell_of_mem (row := r) hc
    rw [hv]
    exact ((cell_ok_iff _ _ _ _).2 ((h2 v).1 ((cell_ok_iff _ _ _ _).1 hv))).symm
  · rw [cell_none hc, cell_none (fun hh => hc (h1.2 hh))]

theorem foldlM_same {S R : Type} {f g : S → R → Except PyErr S} : ∀ {l l' : List R}, List.Forall₂ (fun r r' => ∀ s, f s r = g s r') l l' →
    ∀ s, l.foldlM f s = l'.foldlM g s
  | _, _, .nil, _ => rfl
  | _, _, .cons h t, s => by
    rw [List.foldlM_cons, List.foldlM_cons, h s]
    cases g s _ with
    | error e => rfl
    | ok a => exact foldlM_same t a

theorem readSheet_same {wb wb' : Workbook} {name : Str} {cols used : List Str} (hsub : ∀ c ∈ used, c ∈ cols)
    {f : List XCell → Dict Database → List XCell → Except PyErr (Dict Database)}
    (hf : ∀ h r h' r', (∀ c ∈ used, cell h r c = cell h' r' c) → ∀ dbs, f h dbs r = f h' dbs r')
    (hw : wb.get? name = wb'.get? name ∨ ∃ s s', wb.get? name = some s ∧ wb'.get? name = some s' ∧ Rearranged cols used s s') (dbs : Dict Database) :
    readSheet wb name f dbs = readSheet wb' name f dbs := by
  unfold readSheet
  rcases hw with e | ⟨_, _, e1, e2, h, rows, h', rows', rfl, rfl, hm, hr⟩
  · rw [e]
  · rw [e1, e2]
    exact foldlM_same (hr.imp (fun r r' hrr => hf h r h' r' (fun c hc => cell_same (hm c (hsub c hc)) (hrr c hc)))) dbs

theorem verifySheet_same {wb wb' : Workbook} {p : Str × List Str} {used : List Str}
    (hw : wb.get? p.1 = wb'.get? p.1 ∨ ∃ s s', wb.get? p.1 = some s ∧ wb'.get? p.1 = some s' ∧ Rearranged p.2 used s s') :
    verifySheet wb p = verifySheet wb' p := by
  unfold verifySheet
  rcases hw with e | ⟨_, _, e1, e2, h, rows, h', rows', rfl, rfl, hm, _⟩
  · rw [e]
  · rw [e1, e2]
    simp only [Except.ok.injEq]
    rw [Bool.eq_iff_iff]
    simp only [List.all_eq_true, List.contains_iff_mem]
    constructor
    · intro hh c hc; exact (hm c hc).1 (hh c hc)
    · intro hh c hc; exact (hm c hc).2 (hh c hc)

theorem foldlM_congr_mem {S R : Type} {f g : S → R → Except PyErr S} : ∀ (l : List R) (s : S), (∀ r ∈ l, ∀ s, f s r = g s r) →
    l.foldlM f s = l.foldlM g s
  | [], _, _ => rfl
  | r :: l, s, h => by
    rw [List.foldlM_cons, List.foldlM_cons, h r (by simp)]
    cases g s r with
    | error e => rfl
    | ok a => exact foldlM_congr_mem l a (fun r hr => h r (by simp [hr]))

/-- Workbooks that say the same are read alike. -/
theorem readXls_same {wb wb' : Workbook} (h : SameSheets wb wb') : readXls wb = readXls wb' := by
  have hv : verifyFormat wb = verifyFormat wb' := by
    unfold verifyFormat
    refine foldlM_congr_mem _ _ (fun p hp s => ?_)
    rw [required_eq] at hp
    rw [verifySheet_same (h p hp)]
  have hT : ∀ dbs, readSheet wb c!"Tables" readTableRow dbs = readSheet wb' c!"Tables" readTableRow dbs :=
    readSheet_same (cols := [c!"Database", c!"Schema", c!"Table", c!"Updated", c!"Update Type", c!"# Rows", c!"# Columns",
      c!"Primary Key", c!"Shard Key", c!"# Shards", c!"RLS Column"]) (by decide)
      (fun a b c d e dbs => by
        simp only [readTableRow, rowTable, e c!"Database" (by decide), e c!"Schema" (by decide), e c!"Table" (by decide), e c!"Primary Key" (by decide),
          e c!"Shard Key" (by decide), e c!"# Shards" (by decide)])
      (used := usedHeaders c!"Tables") (h (c!"Tables", _) (by simp [needed]))
  have hC : ∀ dbs, readSheet wb c!"Columns" readColumnRow dbs = readSheet wb' c!"Columns" readColumnRow dbs :=
    readSheet_same (cols := [c!"Database", c!"Schema", c!"Table", c!"Column", c!"Name", c!"Type"]) (by decide)
      (fun a b c d e dbs => by
        simp only [readColumnRow, rowColumn, e c!"Database" (by decide), e c!"Table" (by decide), e c!"Name" (by decide), e c!"Type" (by decide)])
      (used := usedHeaders c!"Columns") (h (c!"Columns", _) (by simp [needed]))
  have hF : ∀ dbs, readSheet wb c!"Foreign Keys" readFKRow dbs = readSheet wb' c!"Foreign Keys" readFKRow dbs :=
    readSheet_same (cols := [c!"Name", c!"Database", c!"Schema", c!"From Table", c!"From Columns", c!"To Table", c!"To Columns"]) (by decide)
      (fun a b c d e dbs => by
        have hrow : rowFK a b = rowFK c d := by
          funext t
          simp only [rowFK, e c!"Name" (by decide), e c!"From Columns" (by decide), e c!"To Columns" (by decide), e c!"To Table" (by decide)]
        simp only [readFKRow, hrow, e c!"Database" (by decide), e c!"From Table" (by decide)])
      (used := usedHeaders c!"Foreign Keys") (h (c!"Foreign Keys", _) (by simp [needed]))
  have hR : ∀ dbs, readSheet wb c!"Relationships" readRelRow dbs = readSheet wb' c!"Relationships" readRelRow dbs :=
    readSheet_same (cols := [c!"Name", c!"Database", c!"Schema", c!"From Table", c!"To Table", c!"Conditions"]) (by decide)
      (fun a b c d e dbs => by
        have hrow : rowRel a b = rowRel c d := by
          funext t
          simp only [rowRel, e c!"To Table" (by decide), e c!"Conditions" (by decide)]
        simp only [readRelRow, hrow, e c!"Database" (by decide), e c!"From Table" (by decide)])
      (used := usedHeaders c!"Relationships") (h (c!"Relationships", _) (by simp [needed]))
  unfold readXls readDatabases
  simp only [hv, hT, hC, hF, hR]

/-! ## Columns in another order -/

theorem getElem?_permuted (σ : List Nat) (r : List XCell) (k : Nat) :
    (σ.map (fun i => (r[i]?).getD (.text [])))[k]? = (σ[k]?).map (fun i => (r[i]?).getD (.text [])) := by
  simp

theorem rearranged_permuted {σ : List Nat} {cols used : List Str} {h : List XCell} {rows : List (List XCell)} (hσ : σ.Perm (List.range h.length))
    (hu : ∀ c ∈ used, ∀ i j : Nat, h[i]? = some (XCell.text c) → h[j]? = some (XCell.text c) → i = j) :
    Rearranged cols used (h :: rows) (permuted σ (h :: rows)) := by
  have hnd : σ.Nodup := hσ.nodup_iff.2 List.nodup_range
  have hlt : ∀ {k i : Nat}, σ[k]? = some i → i < h.length := by
    intro k i hk
    have := (hσ.mem_iff (a := i)).1 (List.mem_of_getElem? hk)
    simpa using this
  have hpos : ∀ {i : Nat}, i < h.length → ∃ k : Nat, σ[k]? = some i := by
    intro i hi
    exact List.getElem?_of_mem ((hσ.mem_iff (a := i)).2 (by simpa using hi))
  -- the header at a place
  have hat : ∀ (k : Nat) (x : XCell), (σ.map (fun i => (h[i]?).getD (.text [])))[k]? = some x ↔ ∃ i : Nat, σ[k]? = some i ∧ h[i]? = some x := by
    intro k x
    rw [getElem?_permuted]
    constructor
    · intro e
      cases hk : σ[k]? with
      | none => simp [hk] at e
      | some i =>
        refine ⟨i, rfl, ?_⟩
        have := hlt hk
        simp only [hk, Option.map_some, Option.some.injEq] at e
        rw [List.getElem?_eq_getElem this] at e ⊢
        simpa using e
    · rintro ⟨i, hk, hx⟩
      simp [hk, hx]
  refine ⟨h, rows, _, _, rfl, rfl, ?_, ?_⟩
  · intro c _
    constructor
    · intro hm
      obtain ⟨i, hi⟩ := List.getElem?_of_mem hm
      obtain ⟨k, hk⟩ := hpos (List.getElem?_eq_some_iff.1 hi).1
      exact List.mem_of_getElem? ((hat k _).2 ⟨i, hk, hi⟩)
    · intro hm
      obtain ⟨k, hk⟩ := List.getElem?_of_mem hm
      obtain ⟨i, _, hi⟩ := (hat k _).1 hk
      exact List.mem_of_getElem? hi
  · rw [List.forall₂_map_right_iff]
    apply List.forall₂_same.2
    intro r _ c hc v
    constructor
    · rintro ⟨i, hi, _, rfl⟩
      obtain ⟨k, hk⟩ := hpos (List.getElem?_eq_some_iff.1 hi).1
      refine ⟨k, (hat k _).2 ⟨i, hk, hi⟩, ?_, by rw [getElem?_permuted, hk]; rfl⟩
      intro j hj hh
      obtain ⟨i', hk', hi'⟩ := (hat j _).1 hh
      have e := hu c hc i i' hi hi'
      subst e
      have := (List.getElem?_inj (List.getElem?_eq_some_iff.1 hk).1 hnd).1 (hk.trans hk'.symm)
      omega
    · rintro ⟨k, hk, _, rfl⟩
      obtain ⟨i, hσk, hi⟩ := (hat k _).1 hk
      refine ⟨i, hi, ?_, by rw [getElem?_permuted, hσk]; rfl⟩
      intro j hj hh
      have := hu c hc i j hi hh
      omega

theorem place_lt {h : List XCell} {x : XCell} (hc : h.count x ≤ 1) {i j : Nat} (hi : h[i]? = some x) (hj : h[j]? = some x) : ¬ i < j := by
  intro hij
  have hjl := (List.getElem?_eq_some_iff.1 hj).1
  have e : h.count x = (h.take j).count x + (h.drop j).count x := by
    rw [← List.count_append, List.take_append_drop]
  have h1 : 0 < (h.take j).count x := by
    apply List.count_pos_iff.2
    apply List.mem_of_getElem? (i := i)
    rw [List.getElem?_take_of_lt hij]; exact hi
  have h2 : 0 < (h.drop j).count x := by
    apply List.count_pos_iff.2
    apply List.mem_of_getElem? (i := 0)
    rw [List.getElem?_drop]; exact hj
  omega

/-- A header that is there at most once has one place. -/
theorem place_unique {h : List XCell} {x : XCell} (hc : h.count x ≤ 1) (i j : Nat) (hi : h[i]? = some x) (hj : h[j]? = some x) : i = j := by
  have := place_lt hc hi hj
  have := place_lt hc hj hi
  omega

/-! ## A new column -/

theorem getElem?_insert {α : Type} {l : List α} {k : Nat} (hk : k ≤ l.length) (x : α) (i : Nat) :
    (l.take k ++ x :: l.drop k)[if i < k then i else i + 1]? = l[i]? := by
  have hlen : (l.take k).length = k := by simp [hk]
  by_cases hi : i < k
  · rw [if_pos hi, List.getElem?_append_left (by omega), List.getElem?_take_of_lt hi]
  · rw [if_neg hi, List.getElem?_append_right (by omega), hlen]
    have : i + 1 - k = (i - k) + 1 := by omega
    rw [this, List.getElem?_cons_succ, List.getElem?_drop]
    congr 1
    omega

theorem getElem?_insert_self {α : Type} {l : List α} {k : Nat} (hk : k ≤ l.length) (x : α) : (l.take k ++ x :: l.drop k)[k]? = some x := by
  have hlen : (l.take k).length = k := by simp [hk]
  rw [List.getElem?_append_right (by omega), hlen]
  simp

theorem under_insert {h r : List XCell} {k : Nat} {x y : XCell} {c : Str} (hx : x ≠ .text c) (hk : k ≤ h.length) (hr : k ≤ r.length) (v : XCell) :
    Under h r c v ↔ Under (h.take k ++ x :: h.drop k) (r.take k ++ y :: r.drop k) c v := by
  have split : ∀ j : Nat, j ≠ k → ∃ i : Nat, j = if i < k then i else i + 1 := by
    intro j hj
    by_cases hjk : j < k
    · exact ⟨j, by rw [if_pos hjk]⟩
    · exact ⟨j - 1, by rw [if_neg (by omega)]; omega⟩
  have mono : ∀ i j : Nat, (if i < k then i else i + 1) < (if j < k then j else j + 1) ↔ i < j := by
    intro i j
    split_ifs <;> omega
  constructor
  · rintro ⟨i, hi, hlast, rfl⟩
    refine ⟨if i < k then i else i + 1, by rw [getElem?_insert hk]; exact hi, ?_, by rw [getElem?_insert hr]⟩
    intro j hj hh
    by_cases hjk : j = k
    · subst hjk
      rw [getElem?_insert_self hk] at hh
      exact hx (Option.some.inj hh)
    · obtain ⟨j', rfl⟩ := split j hjk
      rw [getElem?_insert hk] at hh
      exact hlast j' ((mono i j').1 hj) hh
  · rintro ⟨j, hj, hlast, rfl⟩
    by_cases hjk : j = k
    · subst hjk
      rw [getElem?_insert_self hk] at hj
      exact absurd (Option.some.inj hj) hx
    · obtain ⟨i, rfl⟩ := split j hjk
      rw [getElem?_insert hk] at hj
      refine ⟨i, hj, ?_, by rw [getElem?_insert hr]⟩
      intro j' hj' hh
      exact hlast _ ((mono i j').2 hj') (by rw [getElem?_insert hk]; exact hh)

theorem mem_insert_iff {h : List XCell} {k : Nat} {x : XCell} {c : Str} (hx : x ≠ .text c) :
    XCell.text c ∈ h ↔ XCell.text c ∈ h.take k ++ x :: h.drop k := by
  conv_lhs => rw [← List.take_append_drop k h]
  simp only [List.mem_append, List.mem_cons]
  constructor
  · rintro (h | h)
    · exact .inl h
    · exact .inr (.inr h)
  · rintro (h | h | h)
    · exact .inl h
    · exact absurd h.symm hx
    · exact .inr h

theorem forall₂_zipIdx {cols : List Str} {h : List XCell} {k : Nat} {x : Nat → XCell} (hx : ∀ c ∈ cols, x 0 ≠ .text c) (hk : k ≤ h.length) :
    ∀ (rows : List (List XCell)) (i : Nat), (∀ r ∈ rows, k ≤ r.length) →
    List.Forall₂ (fun r r' => ∀ c ∈ cols, ∀ v, Under h r c v ↔ Under (h.take k ++ x 0 :: h.drop k) r' c v) rows
      ((rows.zipIdx i).map (fun p => p.1.take k ++ x p.2 :: p.1.drop k))
  | [], _, _ => .nil
  | r :: rows, i, hr => by
    rw [List.zipIdx_cons, List.map_cons]
    exact .cons (fun c hc v => under_insert (hx c hc) hk (hr r (by simp)) v) (forall₂_zipIdx hx hk rows (i + 1) (fun r h => hr r (by simp [h])))

theorem mem_insert_old {h : List XCell} {k : Nat} {x : XCell} {c : Str} (hx : x = .text c → XCell.text c ∈ h) :
    XCell.text c ∈ h ↔ XCell.text c ∈ h.take k ++ x :: h.drop k := by
  by_cases e : x = .text c
  · subst e
    exact ⟨fun _ => by simp, fun _ => hx rfl⟩
  · exact mem_insert_iff e

theorem rearranged_inserted {k : Nat} {x : Nat → XCell} {cols used : List Str} {h : List XCell} {rows : List (List XCell)} (hk : k ≤ h.length)
    (hr : ∀ r ∈ rows, k ≤ r.length) (hx : ∀ c ∈ used, x 0 ≠ .text c) (hold : ∀ c ∈ cols, x 0 = .text c → XCell.text c ∈ h) :
    Rearranged cols used (h :: rows) (inserted k x (h :: rows)) :=
  ⟨h, rows, _, _, rfl, rfl, fun c hc => mem_insert_old (hold c hc), forall₂_zipIdx hx hk rows 1 hr⟩

theorem used_needed : ∀ p ∈ needed, ∀ c ∈ usedHeaders p.1, c ∈ p.2 := by decide

/-! ## TQL of a database that went through a workbook -/

theorem fmtD_back (c : ShardCount) : fmtD (backCount c) = fmtD c := by
  cases c with
  | int n =>
    simp only [backCount, fmtD, Except.ok.injEq]
    congr 1
    by_cases h : (n : Rat) < 0
    · rw [if_pos h]
      have : (-(n : Rat)) = ((-n : Int) : Rat) := by simp
      rw [this, Rat.floor_intCast]
      simp
    · rw [if_neg h, Rat.floor_intCast]
  | flt q => rfl
  | text s => rfl

theorem genCreateTable_back (o : GenOpts) (t : Table) : genCreateTable o (backTable t) = genCreateTable o t := by
  unfold genCreateTable
  cases hs : t.shard with
  | none => simp only [backTable, hs, Option.map_none]; rfl
  | some k => simp only [backTable, hs, Option.map_some, fmtD_back]; rfl

theorem keys_schemas_addTables : ∀ (ts : List Table) (D : Database),
    (ts.foldl Database.addTable D).schemas.keys = (ts.map (·.schema)).foldl appendNew D.schemas.keys
  | [], _ => rfl
  | t :: ts, D => by
    rw [List.foldl_cons, keys_schemas_addTables ts, List.map_cons, List.foldl_cons]
    congr 1
    simp only [Database.addTable, Dict.keys_set, appendNew]

theorem schemas_addTables : ∀ (ts : List Table) (D : Database) (s : Str),
    ((ts.foldl Database.addTable D).schemas.get? s).getD 0 = (D.schemas.get? s).getD 0 + (ts.countP (fun t => decide (t.schema = s)) : Nat)
  | [], _, _ => by simp
  | t :: ts, D, s => by
    rw [List.foldl_cons, schemas_addTables ts, List.countP_cons]
    simp only [Database.addTable, Dict.get?_set]
    by_cases h : s = t.schema
    · subst h
      simp only [if_true, Option.getD_some, decide_true]
      push_cast
      omega
    · simp only [h, if_false, Ne.symm h, decide_false, Bool.false_eq_true, Nat.add_zero]

end Verif
