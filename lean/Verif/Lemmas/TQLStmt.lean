import Verif.Lemmas.TQL
/-
Each statement text the generator writes, read back.
-/

namespace Verif
open Verif.Spec

theorem plainCount_int (n : Int) : PlainCount (intToStr n) := by
  have nat : ∀ m, PlainCount (natToStr m) := by
    intro m c hc
    have h : c.isDigit = true := Nat.isDigit_of_mem_toDigits (by decide) (by decide) hc
    refine ⟨?_, ?_, ?_, ?_⟩ <;> (rintro rfl; revert h; decide)
  cases n with
  | ofNat m => exact nat m
  | negSucc m =>
    intro c hc
    rcases List.mem_cons.1 hc with rfl | hc
    · decide
    · exact nat _ c hc

theorem Closed.of_plainCount {s : Str} (h : PlainCount s) : Closed s := scan_plain (fun c hc => (h c hc).2)

theorem Closed.lit (s : Str) (h : scan none s = some none := by decide) : Closed s := h

/-- The start of every ALTER statement. -/
def alterHead (sn tn : Str) : Str := c!"ALTER TABLE " ++ quoted sn ++ c!"." ++ quoted tn

theorem closed_alterHead {sn tn : Str} (hs : '"' ∉ sn) (ht : '"' ∉ tn) : Closed (alterHead sn tn) :=
  (((Closed.lit _).append (closed_quoted hs)).append (.lit _)).append (closed_quoted ht)

theorem readStmt_alter {sn tn : Str} (hs : '"' ∉ sn) (ht : '"' ∉ tn) (rest : Str) {op : AlterOp}
    (h : alterRest rest = some op) : readStmt (alterHead sn tn ++ rest) = some (.alter sn tn op) := by
  have e : alterHead sn tn ++ rest = c!"ALTER TABLE " ++ ('"' :: (sn ++ '"' :: '.' :: '"' :: (tn ++ '"' :: rest))) := by
    simp [alterHead, quoted]
  rw [e]
  show (qname ('"' :: (sn ++ '"' :: '.' :: '"' :: (tn ++ '"' :: rest)))).bind
    (fun p => (alterRest p.2.2).bind fun op => some (Stmt.alter p.1 p.2.1 op)) = _
  rw [qname_spec hs ht]
  simp [h]

theorem piece_alter {sn tn rest txt : Str} {op : AlterOp} (hs : '"' ∉ sn) (ht : '"' ∉ tn) (hc : Closed rest)
    (h : alterRest rest = some op) (e : txt = alterHead sn tn ++ rest ++ c!";\n") : Piece txt [.alter sn tn op] := by
  rw [e]
  exact .stmt ((closed_alterHead hs ht).append hc) (readStmt_alter hs ht rest h)

theorem atEnd_nil : atEnd [] = some () := rfl

theorem piece_dropTable {sn tn : Str} (hs : '"' ∉ sn) (ht : '"' ∉ tn) :
    Piece (c!"DROP TABLE \"" ++ sn ++ c!"\".\"" ++ tn ++ c!"\";\n") [.dropTable sn tn] := by
  have e : c!"DROP TABLE \"" ++ sn ++ c!"\".\"" ++ tn ++ c!"\";\n" =
      (c!"DROP TABLE " ++ quoted sn ++ c!"." ++ quoted tn) ++ c!";\n" := by simp [quoted]
  rw [e]
  refine .stmt ((((Closed.lit _).append (closed_quoted hs)).append (.lit _)).append (closed_quoted ht)) ?_
  have e : c!"DROP TABLE " ++ quoted sn ++ c!"." ++ quoted tn =
      c!"DROP TABLE " ++ ('"' :: (sn ++ '"' :: '.' :: '"' :: (tn ++ '"' :: []))) := by simp [quoted]
  rw [e]
  show (qname ('"' :: (sn ++ '"' :: '.' :: '"' :: (tn ++ '"' :: [])))).bind
    (fun p => (atEnd p.2.2).bind fun _ => some (Stmt.dropTable p.1 p.2.1)) = _
  rw [qname_spec hs ht]
  rfl

theorem piece_createDb {n : Str} (h : '"' ∉ n) : Piece (c!"CREATE DATABASE \"" ++ n ++ c!"\";\n") [.createDb n] := by
  have e : c!"CREATE DATABASE \"" ++ n ++ c!"\";\n" = (c!"CREATE DATABASE " ++ quoted n) ++ c!";\n" := by simp [quoted]
  rw [e]
  refine .stmt ((Closed.lit _).append (closed_quoted h)) ?_
  have e : c!"CREATE DATABASE " ++ quoted n = c!"CREATE DATABASE " ++ ('"' :: (n ++ '"' :: [])) := by simp [quoted]
  rw [e]
  show (name ('"' :: (n ++ '"' :: []))).bind (fun p => (atEnd p.2).bind fun _ => some (Stmt.createDb p.1)) = _
  rw [name_spec h]
  rfl

theorem piece_useDb {n : Str} (h : '"' ∉ n) : Piece (c!"USE \"" ++ n ++ c!"\";\n") [.useDb n] := by
  have e : c!"USE \"" ++ n ++ c!"\";\n" = (c!"USE " ++ quoted n) ++ c!";\n" := by simp [quoted]
  rw [e]
  refine .stmt ((Closed.lit _).append (closed_quoted h)) ?_
  have e : c!"USE " ++ quoted n = c!"USE " ++ ('"' :: (n ++ '"' :: [])) := by simp [quoted]
  rw [e]
  show (name ('"' :: (n ++ '"' :: []))).bind (fun p => (atEnd p.2).bind fun _ => some (Stmt.useDb p.1)) = _
  rw [name_spec h]
  rfl

theorem piece_createSchema {n : Str} (h : '"' ∉ n) : Piece (c!"CREATE SCHEMA \"" ++ n ++ c!"\";\n") [.createSchema n] := by
  have e : c!"CREATE SCHEMA \"" ++ n ++ c!"\";\n" = (c!"CREATE SCHEMA " ++ quoted n) ++ c!";\n" := by simp [quoted]
  rw [e]
  refine .stmt ((Closed.lit _).append (closed_quoted h)) ?_
  have e : c!"CREATE SCHEMA " ++ quoted n = c!"CREATE SCHEMA " ++ ('"' :: (n ++ '"' :: [])) := by simp [quoted]
  rw [e]
  show (name ('"' :: (n ++ '"' :: []))).bind (fun p => (atEnd p.2).bind fun _ => some (Stmt.createSchema p.1)) = _
  rw [name_spec h]
  rfl

/-! ## ALTER actions -/

section actions
variable {sn tn : Str} (hs : '"' ∉ sn) (ht : '"' ∉ tn)
include hs ht

theorem piece_dropPK : Piece (c!"ALTER TABLE \"" ++ sn ++ c!"\".\"" ++ tn ++ c!"\" " ++ c!"DROP CONSTRAINT PRIMARY KEY;\n")
    [.alter sn tn .dropPK] := by
  refine piece_alter (rest := c!" DROP CONSTRAINT PRIMARY KEY") hs ht (.lit _) rfl ?_
  simp [alterHead, quoted]

theorem piece_setDimension : Piece (c!"ALTER TABLE \"" ++ sn ++ c!"\".\"" ++ tn ++ c!"\" " ++ c!"SET DIMENSIONS;\n")
    [.alter sn tn .setDimension] := by
  refine piece_alter (rest := c!" SET DIMENSIONS") hs ht (.lit _) rfl ?_
  simp [alterHead, quoted]

theorem piece_setFact {n : Str} {k : List Str} (hn : PlainCount n) (hk : ∀ x ∈ k, '"' ∉ x) :
    Piece (c!"ALTER TABLE \"" ++ sn ++ c!"\".\"" ++ tn ++ c!"\" " ++ c!"SET FACT PARTITION BY HASH (" ++ n ++ c!") KEY (" ++
      listToString k true ++ c!");\n") [.alter sn tn (.setFact n k)] := by
  refine piece_alter (rest := c!" SET FACT PARTITION BY HASH (" ++ n ++ c!") KEY (" ++ listToString k true ++ c!")") hs ht
    (((((Closed.lit _).append (.of_plainCount hn)).append (.lit _)).append (closed_list hk)).append (.lit _)) ?_ ?_
  · have e : c!" SET FACT PARTITION BY HASH (" ++ n ++ c!") KEY (" ++ listToString k true ++ c!")" =
        c!" SET FACT PARTITION BY HASH (" ++ (n ++ ')' :: (c!" KEY " ++ '(' :: (listToString k true ++ ')' :: []))) := by simp
    rw [e]
    have hu := upTo_spec (q := ')') (fun hc => (hn _ hc).1 rfl) (c!" KEY " ++ '(' :: (listToString k true ++ ')' :: []))
    have hp : partition (c!" PARTITION BY HASH (" ++ (n ++ ')' :: (c!" KEY " ++ '(' :: (listToString k true ++ ')' :: [])))) =
        some ((n, k), []) := by
      show (upTo ')' (n ++ ')' :: (c!" KEY " ++ '(' :: (listToString k true ++ ')' :: [])))).bind _ = _
      rw [hu]
      show ((names ('(' :: (listToString k true ++ ')' :: []))).bind _) = _
      rw [names_spec hk]
      rfl
    show (partition (c!" PARTITION BY HASH (" ++ (n ++ ')' :: (c!" KEY " ++ '(' :: (listToString k true ++ ')' :: []))))).bind _ = _
    rw [hp]
    rfl
  · simp [alterHead, quoted]

theorem piece_dropCon {n : Str} (hn : '"' ∉ n) :
    Piece (c!"ALTER TABLE \"" ++ sn ++ c!"\".\"" ++ tn ++ c!"\" " ++ c!"DROP CONSTRAINT \"" ++ n ++ c!"\";\n")
      [.alter sn tn (.dropCon n)] := by
  refine piece_alter (rest := c!" DROP CONSTRAINT " ++ quoted n) hs ht ((Closed.lit _).append (closed_quoted hn)) ?_ ?_
  · have e : c!" DROP CONSTRAINT " ++ quoted n = c!" DROP CONSTRAINT " ++ ('"' :: (n ++ '"' :: [])) := by simp [quoted]
    rw [e]
    show (name ('"' :: (n ++ '"' :: []))).bind _ = _
    rw [name_spec hn]
    rfl
  · simp [alterHead, quoted]

theorem piece_dropCol {n : Str} (hn : '"' ∉ n) :
    Piece (c!"ALTER TABLE \"" ++ sn ++ c!"\".\"" ++ tn ++ c!"\" " ++ c!"DROP COLUMN \"" ++ n ++ c!"\";\n")
      [.alter sn tn (.dropCol n)] := by
  refine piece_alter (rest := c!" DROP COLUMN " ++ quoted n) hs ht ((Closed.lit _).append (closed_quoted hn)) ?_ ?_
  · have e : c!" DROP COLUMN " ++ quoted n = c!" DROP COLUMN " ++ ('"' :: (n ++ '"' :: [])) := by simp [quoted]
    rw [e]
    show (name ('"' :: (n ++ '"' :: []))).bind _ = _
    rw [name_spec hn]
    rfl
  · simp [alterHead, quoted]

theorem piece_modCol {n ty : Str} (hn : '"' ∉ n) (hty : PlainType ty) :
    Piece (c!"ALTER TABLE \"" ++ sn ++ c!"\".\"" ++ tn ++ c!"\" " ++ c!"MODIFY COLUMN \"" ++ n ++ c!"\" " ++ ty ++ c!";\n")
      [.alter sn tn (.modCol n ty)] := by
  refine piece_alter (rest := c!" MODIFY COLUMN " ++ quoted n ++ c!" " ++ ty) hs ht
    ((((Closed.lit _).append (closed_quoted hn)).append (.lit _)).append (closed_type hty)) ?_ ?_
  · have e : c!" MODIFY COLUMN " ++ quoted n ++ c!" " ++ ty = c!" MODIFY COLUMN " ++ ('"' :: (n ++ '"' :: ' ' :: (ty ++ []))) := by
      simp [quoted]
    rw [e]
    show (name ('"' :: (n ++ '"' :: ' ' :: (ty ++ [])))).bind _ = _
    rw [name_spec hn]
    show (ctype (ty ++ [])).bind _ = _
    rw [ctype_spec hty rfl (by simp)]
    rfl
  · simp [alterHead, quoted]

theorem piece_addCol {n ty : Str} (hn : '"' ∉ n) (hty : PlainType ty) (b : Bool) :
    Piece ((if b then c!"ALTER TABLE \"" ++ sn ++ c!"\".\"" ++ tn ++ c!"\" " ++ c!"ADD COLUMN \"" ++ n ++ c!"\" " ++ ty ++
      c!" DEFAULT " ++ c!"''" else c!"ALTER TABLE \"" ++ sn ++ c!"\".\"" ++ tn ++ c!"\" " ++ c!"ADD COLUMN \"" ++ n ++ c!"\" " ++
      ty ++ c!" DEFAULT " ++ c!"0") ++ c!";\n") [.alter sn tn (.addCol n ty)] := by
  refine piece_alter (rest := c!" ADD COLUMN " ++ quoted n ++ c!" " ++ ty ++ (if b then c!" DEFAULT ''" else c!" DEFAULT 0")) hs ht
    (((((Closed.lit _).append (closed_quoted hn)).append (.lit _)).append (closed_type hty)).append (by cases b <;> decide)) ?_ ?_
  · have e : c!" ADD COLUMN " ++ quoted n ++ c!" " ++ ty ++ (if b then c!" DEFAULT ''" else c!" DEFAULT 0") =
        c!" ADD COLUMN " ++ ('"' :: (n ++ '"' :: ' ' :: (ty ++ (if b then c!" DEFAULT ''" else c!" DEFAULT 0")))) := by
      simp [quoted]
    rw [e]
    show (name ('"' :: (n ++ '"' :: ' ' :: (ty ++ (if b then c!" DEFAULT ''" else c!" DEFAULT 0"))))).bind _ = _
    rw [name_spec hn]
    show (ctype (ty ++ (if b then c!" DEFAULT ''" else c!" DEFAULT 0"))).bind _ = _
    rw [ctype_spec hty (by cases b <;> rfl) (by cases b <;> simp)]
    cases b <;> rfl
  · cases b <;> simp [alterHead, quoted]

/-- The reading of a referenced table. -/
theorem target_none {t : Str} (h : '"' ∉ t) (r : Str) (hr : eat c!"." r = none) :
    target ('"' :: (t ++ '"' :: r)) = some (none, t, r) := by
  unfold target
  rw [name_spec h]
  simp [hr]

theorem target_some {s t : Str} (h1 : '"' ∉ s) (h2 : '"' ∉ t) (r : Str) :
    target ('"' :: (s ++ '"' :: '.' :: '"' :: (t ++ '"' :: r))) = some (some s, t, r) := by
  unfold target
  rw [name_spec h1]
  show (name ('"' :: (t ++ '"' :: r))).bind _ = _
  rw [name_spec h2]
  rfl

theorem piece_addFK_alter {n t : Str} {k m : List Str} (hn : '"' ∉ n) (hk : ∀ x ∈ k, '"' ∉ x) (htt : '"' ∉ t)
    (hm : ∀ x ∈ m, '"' ∉ x) :
    Piece (c!"ALTER TABLE \"" ++ sn ++ c!"\".\"" ++ tn ++ c!"\" " ++ c!"ADD CONSTRAINT FOREIGN KEY \"" ++ n ++ c!"\" (" ++
      listToString k true ++ c!") REFERENCES \"" ++ t ++ c!"\" (" ++ listToString m true ++ c!");\n")
      [.alter sn tn (.addFK n k none t m)] := by
  refine piece_alter (rest := c!" ADD CONSTRAINT FOREIGN KEY " ++ quoted n ++ c!" (" ++ listToString k true ++ c!") REFERENCES " ++
      quoted t ++ c!" (" ++ listToString m true ++ c!")") hs ht
    (((((((((Closed.lit _).append (closed_quoted hn)).append (.lit _)).append (closed_list hk)).append (.lit _)).append
      (closed_quoted htt)).append (.lit _)).append (closed_list hm)).append (.lit _)) ?_ ?_
  · have e : c!" ADD CONSTRAINT FOREIGN KEY " ++ quoted n ++ c!" (" ++ listToString k true ++ c!") REFERENCES " ++
      quoted t ++ c!" (" ++ listToString m true ++ c!")" =
      c!" ADD CONSTRAINT FOREIGN KEY " ++ ('"' :: (n ++ '"' :: (c!" " ++ '(' :: (listToString k true ++ ')' :: (c!" REFERENCES " ++
        ('"' :: (t ++ '"' :: (c!" " ++ '(' :: (listToString m true ++ ')' :: []))))))))) := by simp [quoted]
    rw [e]
    show ((name ('"' :: (n ++ '"' :: (c!" " ++ '(' :: (listToString k true ++ ')' :: (c!" REFERENCES " ++
        ('"' :: (t ++ '"' :: (c!" " ++ '(' :: (listToString m true ++ ')' :: [])))))))))).bind _) = _
    rw [name_spec hn]
    show (names ('(' :: (listToString k true ++ ')' :: (c!" REFERENCES " ++
        ('"' :: (t ++ '"' :: (c!" " ++ '(' :: (listToString m true ++ ')' :: [])))))))).bind _ = _
    rw [names_spec hk]
    show (target ('"' :: (t ++ '"' :: (c!" " ++ '(' :: (listToString m true ++ ')' :: []))))).bind _ = _
    rw [target_none hs ht htt _ rfl]
    show (names ('(' :: (listToString m true ++ ')' :: []))).bind _ = _
    rw [names_spec hm]
    rfl
  · simp [alterHead, quoted]

theorem piece_addFK_tql {n ts t : Str} {k m : List Str} (hn : '"' ∉ n) (hk : ∀ x ∈ k, '"' ∉ x) (hts : '"' ∉ ts) (htt : '"' ∉ t)
    (hm : ∀ x ∈ m, '"' ∉ x) :
    Piece (c!"ALTER TABLE \"" ++ sn ++ c!"\".\"" ++ tn ++ c!"\" ADD CONSTRAINT \"" ++ n ++ c!"\" FOREIGN KEY (" ++
      listToString k true ++ c!") REFERENCES \"" ++ ts ++ c!"\".\"" ++ t ++ c!"\" (" ++ listToString m true ++ c!");\n")
      [.alter sn tn (.addFK n k (some ts) t m)] := by
  refine piece_alter (rest := c!" ADD CONSTRAINT " ++ quoted n ++ c!" FOREIGN KEY (" ++ listToString k true ++ c!") REFERENCES " ++
      quoted ts ++ c!"." ++ quoted t ++ c!" (" ++ listToString m true ++ c!")") hs ht
    (((((((((((Closed.lit _).append (closed_quoted hn)).append (.lit _)).append (closed_list hk)).append (.lit _)).append
      (closed_quoted hts)).append (.lit _)).append
      (closed_quoted htt)).append (.lit _)).append (closed_list hm)).append (.lit _)) ?_ ?_
  · have e : c!" ADD CONSTRAINT " ++ quoted n ++ c!" FOREIGN KEY (" ++ listToString k true ++ c!") REFERENCES " ++
      quoted ts ++ c!"." ++ quoted t ++ c!" (" ++ listToString m true ++ c!")" =
      c!" ADD CONSTRAINT " ++ ('"' :: (n ++ '"' :: (c!" FOREIGN KEY " ++ '(' :: (listToString k true ++ ')' :: (c!" REFERENCES " ++
        ('"' :: (ts ++ '"' :: '.' :: '"' :: (t ++ '"' :: (c!" " ++ '(' :: (listToString m true ++ ')' :: [])))))))))) := by
      simp [quoted]
    rw [e]
    show (((name ('"' :: (n ++ '"' :: (c!" FOREIGN KEY " ++ '(' :: (listToString k true ++ ')' :: (c!" REFERENCES " ++
        ('"' :: (ts ++ '"' :: '.' :: '"' :: (t ++ '"' :: (c!" " ++ '(' :: (listToString m true ++ ')' :: []))))))))))).bind _).bind _) = _
    rw [name_spec hn]
    show (names ('(' :: (listToString k true ++ ')' :: (c!" REFERENCES " ++
        ('"' :: (ts ++ '"' :: '.' :: '"' :: (t ++ '"' :: (c!" " ++ '(' :: (listToString m true ++ ')' :: []))))))))).bind _ = _
    rw [names_spec hk]
    show (target ('"' :: (ts ++ '"' :: '.' :: '"' :: (t ++ '"' :: (c!" " ++ '(' :: (listToString m true ++ ')' :: [])))))).bind _ = _
    rw [target_some hs ht hts htt]
    show (names ('(' :: (listToString m true ++ ')' :: []))).bind _ = _
    rw [names_spec hm]
    rfl
  · simp [alterHead, quoted]

theorem piece_addRel_alter {n t c : Str} (hn : '"' ∉ n) (htt : '"' ∉ t) (hc : PlainCondition c) :
    Piece (c!"ALTER TABLE \"" ++ sn ++ c!"\".\"" ++ tn ++ c!"\" " ++ c!"ADD RELATIONSHIP \"" ++ n ++ c!"\" WITH \"" ++ t ++
      c!"\" AS " ++ c ++ c!";\n") [.alter sn tn (.addRel n none t c)] := by
  refine piece_alter (rest := c!" ADD RELATIONSHIP " ++ quoted n ++ c!" WITH " ++ quoted t ++ c!" AS " ++ c) hs ht
    ((((((Closed.lit _).append (closed_quoted hn)).append (.lit _)).append (closed_quoted htt)).append (.lit _)).append hc.closed) ?_ ?_
  · have e : c!" ADD RELATIONSHIP " ++ quoted n ++ c!" WITH " ++ quoted t ++ c!" AS " ++ c =
        c!" ADD RELATIONSHIP " ++ ('"' :: (n ++ '"' :: (c!" WITH " ++ ('"' :: (t ++ '"' :: (c!" AS " ++ c)))))) := by simp [quoted]
    rw [e]
    show (name ('"' :: (n ++ '"' :: (c!" WITH " ++ ('"' :: (t ++ '"' :: (c!" AS " ++ c))))))).bind _ = _
    rw [name_spec hn]
    show (target ('"' :: (t ++ '"' :: (c!" AS " ++ c)))).bind _ = _
    rw [target_none hs ht htt _ rfl]
    show some (AlterOp.addRel n none t ((skip (skip c).reverse).reverse)) = _
    rw [hc.left, hc.right, List.reverse_reverse]
  · simp [alterHead, quoted]

theorem piece_addRel_tql {n ts t c : Str} (hn : '"' ∉ n) (hts : '"' ∉ ts) (htt : '"' ∉ t) (hc : PlainCondition c) :
    Piece (c!"ALTER TABLE \"" ++ sn ++ c!"\".\"" ++ tn ++ c!"\" ADD RELATIONSHIP \"" ++ n ++ c!"\" WITH \"" ++ ts ++ c!"\".\"" ++ t ++
      c!"\" AS " ++ c ++ c!";\n") [.alter sn tn (.addRel n (some ts) t c)] := by
  refine piece_alter (rest := c!" ADD RELATIONSHIP " ++ quoted n ++ c!" WITH " ++ quoted ts ++ c!"." ++ quoted t ++ c!" AS " ++ c) hs ht
    ((((((((Closed.lit _).append (closed_quoted hn)).append (.lit _)).append (closed_quoted hts)).append (.lit _)).append
      (closed_quoted htt)).append (.lit _)).append hc.closed) ?_ ?_
  · have e : c!" ADD RELATIONSHIP " ++ quoted n ++ c!" WITH " ++ quoted ts ++ c!"." ++ quoted t ++ c!" AS " ++ c =
        c!" ADD RELATIONSHIP " ++ ('"' :: (n ++ '"' :: (c!" WITH " ++ ('"' :: (ts ++ '"' :: '.' :: '"' :: (t ++ '"' ::
          (c!" AS " ++ c))))))) := by simp [quoted]
    rw [e]
    show (name ('"' :: (n ++ '"' :: (c!" WITH " ++ ('"' :: (ts ++ '"' :: '.' :: '"' :: (t ++ '"' :: (c!" AS " ++ c)))))))).bind _ = _
    rw [name_spec hn]
    show (target ('"' :: (ts ++ '"' :: '.' :: '"' :: (t ++ '"' :: (c!" AS " ++ c))))).bind _ = _
    rw [target_some hs ht hts htt]
    show some (AlterOp.addRel n (some ts) t ((skip (skip c).reverse).reverse)) = _
    rw [hc.left, hc.right, List.reverse_reverse]
  · simp [alterHead, quoted]

end actions

/-! ## CREATE TABLE -/

/-- One column line from its name on. -/
def colText (p : Str × Str) : Str := quoted p.1 ++ c!" " ++ p.2 ++ c!"\n"

/-- The primary key line. -/
def pkText (pk : List Str) : Str :=
  if pk = [] then [] else c!"   ,CONSTRAINT PRIMARY KEY (" ++ listToString pk true ++ c!")\n"

/-- The partition clause. -/
def shardText : Option (Str × List Str) → Str
  | none => []
  | some (n, k) => c!" PARTITION BY HASH(" ++ n ++ c!") KEY(" ++ listToString k true ++ c!")"

/-- The column lines after the first. -/
def moreCols (cs : List (Str × Str)) : Str := cs.flatMap (fun p => c!"   ," ++ colText p)

theorem genColumns_false (o : GenOpts) (cs : List Column) :
    genColumns o false cs = moreCols (cs.map (fun c => (colCase o c.name, c.type))) := by
  induction cs with
  | nil => rfl
  | cons c cs ih => simp [genColumns, ih, moreCols, colText, quoted]

theorem genColumns_true (o : GenOpts) (c : Column) (cs : List Column) :
    genColumns o true (c :: cs) = c!"    " ++ colText (colCase o c.name, c.type) ++
      moreCols (cs.map (fun c => (colCase o c.name, c.type))) := by
  simp [genColumns, genColumns_false, colText, quoted]

theorem name_skip {pre s : Str} (h : ∀ c ∈ pre, blankC c = true) : name (pre ++ s) = name s := by
  unfold name eat; rw [skip_blank h]

theorem items_spec {pk : List Str} (hpk : ∀ x ∈ pk, '"' ∉ x) (cs : List (Str × Str)) (p : Str × Str)
    (h : ∀ q ∈ p :: cs, '"' ∉ q.1 ∧ PlainType q.2) (pre : Str) (hpre : ∀ c ∈ pre, blankC c = true) (r : Str) (k : Nat)
    (hk : cs.length + 2 ≤ k) :
    items k (pre ++ (colText p ++ (moreCols cs ++ (pkText pk ++ ')' :: r)))) = some (p :: cs, pk, r) := by
  induction cs generalizing p pre k with
  | nil =>
    obtain ⟨k, rfl⟩ : ∃ j, k = j + 2 := ⟨k - 2, by simp at hk; omega⟩
    obtain ⟨hq, hty⟩ := h p (by simp)
    have e : colText p ++ (moreCols [] ++ (pkText pk ++ ')' :: r)) =
        '"' :: (p.1 ++ '"' :: ' ' :: (p.2 ++ ('\n' :: (pkText pk ++ ')' :: r)))) := by simp [colText, quoted, moreCols]
    rw [e, items, kw_blank hpre]
    have e2 : kw c!"CONSTRAINT" ('"' :: (p.1 ++ '"' :: ' ' :: (p.2 ++ ('\n' :: (pkText pk ++ ')' :: r))))) = none := rfl
    rw [e2]
    simp only [name_skip hpre, name_spec hq]
    show (ctype (p.2 ++ ('\n' :: (pkText pk ++ ')' :: r)))).bind _ = _
    rw [ctype_spec hty rfl (by simp)]
    by_cases hp : pk = []
    · subst hp
      rfl
    · have e3 : eat c!"," ('\n' :: (pkText pk ++ ')' :: r)) = some (c!"CONSTRAINT PRIMARY KEY " ++
          ('(' :: (listToString pk true ++ ')' :: ('\n' :: ')' :: r)))) := by
        unfold pkText
        rw [if_neg hp]
        simp [eat, skip, blankC]
      simp only [Option.bind_some, e3]
      show (items (k + 1) _).bind _ = _
      rw [items]
      have e4 : kw c!"CONSTRAINT" (c!"CONSTRAINT PRIMARY KEY " ++ ('(' :: (listToString pk true ++ ')' :: ('\n' :: ')' :: r)))) =
          some (c!" PRIMARY KEY " ++ ('(' :: (listToString pk true ++ ')' :: ('\n' :: ')' :: r)))) := rfl
      rw [e4]
      show ((names ('(' :: (listToString pk true ++ ')' :: ('\n' :: ')' :: r)))).bind _).bind _ = _
      rw [names_spec hpk]
      rfl
  | cons c cs ih =>
    obtain ⟨k, rfl⟩ : ∃ j, k = j + 1 := ⟨k - 1, by simp at hk; omega⟩
    obtain ⟨hq, hty⟩ := h p (by simp)
    have e : colText p ++ (moreCols (c :: cs) ++ (pkText pk ++ ')' :: r)) =
        '"' :: (p.1 ++ '"' :: ' ' :: (p.2 ++ ('\n' :: (c!"   ," ++ (colText c ++ (moreCols cs ++ (pkText pk ++ ')' :: r))))))) := by
      simp [colText, quoted, moreCols]
    rw [e, items, kw_blank hpre]
    have e2 : kw c!"CONSTRAINT" ('"' :: (p.1 ++ '"' :: ' ' :: (p.2 ++ ('\n' :: (c!"   ," ++ (colText c ++ (moreCols cs ++ (pkText pk ++ ')' :: r)))))))) = none := rfl
    rw [e2]
    simp only [name_skip hpre, name_spec hq]
    show (ctype (p.2 ++ ('\n' :: (c!"   ," ++ (colText c ++ (moreCols cs ++ (pkText pk ++ ')' :: r))))))).bind _ = _
    rw [ctype_spec hty rfl (by simp)]
    have e3 : eat c!"," ('\n' :: (c!"   ," ++ (colText c ++ (moreCols cs ++ (pkText pk ++ ')' :: r))))) =
        some (colText c ++ (moreCols cs ++ (pkText pk ++ ')' :: r))) := rfl
    simp only [Option.bind_some, e3]
    have := ih c (fun q hq => h q (by simp at hq ⊢; tauto)) [] (by simp) k (by simp at hk; omega)
    simp only [List.nil_append] at this
    rw [this]
    rfl

end Verif
