import Verif.Lemmas.TQLStmt
/-
CREATE TABLE and the whole-script lemmas.
-/

namespace Verif
open Verif.Spec

/-- The whole body of a CREATE TABLE without the `;`. -/
def createText (sn tn : Str) (cols : List (Str × Str)) (pk : List Str) (shard : Option (Str × List Str)) : Str :=
  c!"CREATE TABLE " ++ quoted sn ++ c!"." ++ quoted tn ++ c!" (\n" ++
  (match cols with
   | [] => []
   | p :: cs => c!"    " ++ colText p ++ moreCols cs) ++ pkText pk ++ c!")" ++ shardText shard

/-- What can be printed in a CREATE TABLE and read back. -/
structure PlainCreate (sn tn : Str) (cols : List (Str × Str)) (pk : List Str) (shard : Option (Str × List Str)) : Prop where
  hsn : '"' ∉ sn
  htn : '"' ∉ tn
  hcols : ∀ p ∈ cols, '"' ∉ p.1 ∧ PlainType p.2
  hpk : ∀ x ∈ pk, '"' ∉ x
  hshard : ∀ n k, shard = some (n, k) → PlainCount n ∧ ∀ x ∈ k, '"' ∉ x
  hempty : cols = [] → pk = []

theorem closed_colText {p : Str × Str} (h : '"' ∉ p.1 ∧ PlainType p.2) : Closed (colText p) :=
  (((closed_quoted h.1).append (.lit _)).append (closed_type h.2)).append (.lit _)

theorem closed_moreCols {cs : List (Str × Str)} (h : ∀ p ∈ cs, '"' ∉ p.1 ∧ PlainType p.2) : Closed (moreCols cs) := by
  induction cs with
  | nil => exact .lit _
  | cons p cs ih =>
    rw [moreCols, List.flatMap_cons]
    exact ((Closed.lit _).append (closed_colText (h p (by simp)))).append (ih (fun q hq => h q (by simp [hq])))

theorem closed_pkText {pk : List Str} (h : ∀ x ∈ pk, '"' ∉ x) : Closed (pkText pk) := by
  unfold pkText
  split
  · exact .lit _
  · exact ((Closed.lit _).append (closed_list h)).append (.lit _)

theorem closed_shardText {sh : Option (Str × List Str)} (h : ∀ n k, sh = some (n, k) → PlainCount n ∧ ∀ x ∈ k, '"' ∉ x) :
    Closed (shardText sh) := by
  match sh, h with
  | none, _ => exact .lit _
  | some (n, k), h =>
    obtain ⟨h1, h2⟩ := h n k rfl
    exact ((((Closed.lit _).append (.of_plainCount h1)).append (.lit _)).append (closed_list h2)).append (.lit _)

theorem length_moreCols (cs : List (Str × Str)) : cs.length ≤ (moreCols cs).length := by
  induction cs with
  | nil => simp
  | cons p cs ih => rw [moreCols, List.flatMap_cons]; simp [moreCols] at ih ⊢; omega

theorem atEnd_shard (sh : Option (Str × List Str)) (h : ∀ n k, sh = some (n, k) → PlainCount n ∧ ∀ x ∈ k, '"' ∉ x)
    (f : Option (Str × List Str) → Stmt) :
    (match atEnd (shardText sh) with
      | some () => some (f none)
      | none => do
        let (sh, s) ← partition (shardText sh)
        let _ ← atEnd s
        some (f (some sh))) = some (f sh) := by
  match sh, h with
  | none, _ => rfl
  | some (n, k), h =>
    obtain ⟨h1, h2⟩ := h n k rfl
    have e : shardText (some (n, k)) = c!" PARTITION BY HASH(" ++ (n ++ ')' :: (c!" KEY" ++ '(' :: (listToString k true ++ ')' :: []))) := by
      simp [shardText]
    rw [e]
    have hp : partition (c!" PARTITION BY HASH(" ++ (n ++ ')' :: (c!" KEY" ++ '(' :: (listToString k true ++ ')' :: [])))) =
        some ((n, k), []) := by
      show (upTo ')' (n ++ ')' :: (c!" KEY" ++ '(' :: (listToString k true ++ ')' :: [])))).bind _ = _
      rw [upTo_spec (q := ')') (fun hc => (h1 _ hc).1 rfl)]
      show ((names ('(' :: (listToString k true ++ ')' :: []))).bind _) = _
      rw [names_spec h2]
      rfl
    have ha : atEnd (c!" PARTITION BY HASH(" ++ (n ++ ')' :: (c!" KEY" ++ '(' :: (listToString k true ++ ')' :: [])))) = none := rfl
    rw [ha, hp]
    rfl

theorem readStmt_create {sn tn : Str} {cols : List (Str × Str)} {pk : List Str} {shard : Option (Str × List Str)}
    (h : PlainCreate sn tn cols pk shard) :
    readStmt (createText sn tn cols pk shard) = some (.createTable sn tn cols pk shard) := by
  cases cols with
  | nil =>
    obtain rfl := h.hempty rfl
    have e : createText sn tn [] [] shard = c!"CREATE TABLE " ++ ('"' :: (sn ++ '"' :: '.' :: '"' :: (tn ++ '"' :: (c!" (\n)" ++ shardText shard)))) := by
      simp [createText, quoted, pkText]
    rw [e]
    show createRest (' ' :: '"' :: (sn ++ '"' :: '.' :: '"' :: (tn ++ '"' :: (c!" (\n)" ++ shardText shard)))) = _
    unfold createRest
    rw [qname_sp, qname_spec h.hsn h.htn]
    exact atEnd_shard shard h.hshard (fun x => .createTable sn tn [] [] x)
  | cons p cs =>
    have e : createText sn tn (p :: cs) pk shard = c!"CREATE TABLE " ++ ('"' :: (sn ++ '"' :: '.' :: '"' :: (tn ++ '"' ::
        (c!" (" ++ (c!"\n    " ++ (colText p ++ (moreCols cs ++ (pkText pk ++ ')' :: shardText shard)))))))) := by
      simp [createText, quoted]
    rw [e]
    show createRest (' ' :: '"' :: (sn ++ '"' :: '.' :: '"' :: (tn ++ '"' ::
        (c!" (" ++ (c!"\n    " ++ (colText p ++ (moreCols cs ++ (pkText pk ++ ')' :: shardText shard)))))))) = _
    unfold createRest
    rw [qname_sp, qname_spec h.hsn h.htn]
    have e1 : eat c!"(" (c!" (" ++ (c!"\n    " ++ (colText p ++ (moreCols cs ++ (pkText pk ++ ')' :: shardText shard))))) =
      some (c!"\n    " ++ (colText p ++ (moreCols cs ++ (pkText pk ++ ')' :: shardText shard)))) := rfl
    have e2 : eat c!")" (c!"\n    " ++ (colText p ++ (moreCols cs ++ (pkText pk ++ ')' :: shardText shard)))) = none := rfl
    have e3 := items_spec h.hpk cs p h.hcols c!"\n    " (by decide) (shardText shard)
      (c!"\n    " ++ (colText p ++ (moreCols cs ++ (pkText pk ++ ')' :: shardText shard)))).length
      (by have := length_moreCols cs; simp; omega)
    simp only [Option.bind_eq_bind, Option.bind_some, e1, e2, e3]
    exact atEnd_shard shard h.hshard (fun x => .createTable sn tn (p :: cs) pk x)

theorem closed_create {sn tn : Str} {cols : List (Str × Str)} {pk : List Str} {shard : Option (Str × List Str)}
    (h : PlainCreate sn tn cols pk shard) : Closed (createText sn tn cols pk shard) := by
  unfold createText
  refine Closed.append (Closed.append (Closed.append (Closed.append ?_ ?_) (closed_pkText h.hpk)) (.lit _)) (closed_shardText h.hshard)
  · exact ((((Closed.lit _).append (closed_quoted h.hsn)).append (.lit _)).append (closed_quoted h.htn)).append (.lit _)
  · cases cols with
    | nil => exact .lit _
    | cons p cs =>
      exact ((Closed.lit _).append (closed_colText (h.hcols p (by simp)))).append (closed_moreCols (fun q hq => h.hcols q (by simp [hq])))

theorem piece_create {sn tn : Str} {cols : List (Str × Str)} {pk : List Str} {shard : Option (Str × List Str)}
    (h : PlainCreate sn tn cols pk shard) :
    Piece (createText sn tn cols pk shard ++ c!";\n") [.createTable sn tn cols pk shard] :=
  .stmt (closed_create h) (readStmt_create h)

/-- The text of `genCreateTable` in the above form. -/
theorem genCreateTable_eq {o : GenOpts} {t : Table} {txt : Str} (h : genCreateTable o t = .ok txt) :
    ∃ sn tn, toCase o t.schema = .ok sn ∧ toCase o t.name = .ok tn ∧
      (∀ k s, t.shard = some k → k.number ≠ .text s) ∧
      txt = createText sn tn (t.cols.map (fun p => (colCase o p.2.name, p.2.type))) t.pk
        (t.shard.map (fun k => (countText k.number, k.keys))) ++ c!";\n" := by
  unfold genCreateTable at h
  cases htn : toCase o t.name with
  | error e => rw [htn] at h; cases h
  | ok tn =>
    cases hsn : toCase o t.schema with
    | error e => rw [htn, hsn] at h; cases h
    | ok sn =>
      rw [htn, hsn] at h
      have hcols : genColumns o true t.iter = (match t.cols.map (fun p => (colCase o p.2.name, p.2.type)) with
          | [] => []
          | p :: cs => c!"    " ++ colText p ++ moreCols cs) := by
        unfold Table.iter Dict.vals
        cases t.cols with
        | nil => rfl
        | cons p cs => simp only [List.map_cons]; rw [genColumns_true]; simp [Function.comp_def]
      have hpk : ∀ x : Str, (if t.pk.length ≠ 0 then x ++ c!"   ,CONSTRAINT PRIMARY KEY (" ++ listToString t.pk true ++ c!")\n" else x) =
          x ++ pkText t.pk := by
        intro x
        unfold pkText
        cases t.pk <;> simp
      refine ⟨sn, tn, rfl, rfl, ?_, ?_⟩
      · intro k s hs hk
        rw [hs] at h
        obtain ⟨keys, number⟩ := k
        cases hk
        cases h
      · simp only [bind, Except.bind] at h
        rw [hpk, hcols] at h
        cases hs : t.shard with
        | none =>
          rw [hs] at h
          cases h
          simp [createText, quoted, shardText]
        | some sk =>
          rw [hs] at h
          obtain ⟨keys, number⟩ := sk
          cases number with
          | int n =>
            cases h
            simp [createText, quoted, shardText, countText]
          | flt q =>
            cases h
            simp [createText, quoted, shardText, countText]
          | text s => cases h

end Verif
