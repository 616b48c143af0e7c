import Verif.Spec.TQL
import Verif.Generator
import Mathlib.Tactic.Tauto
/-
Reading the text the generator writes.
-/

namespace Verif
open Verif.Spec

/-! ## Cutting -/

theorem scan_append (m : Option Char) (a b : Str) : scan m (a ++ b) = (scan m a).bind (fun m' => scan m' b) := by
  induction a generalizing m with
  | nil => cases m <;> rfl
  | cons c a ih =>
    cases m with
    | none =>
      rw [List.cons_append, scan, scan]
      split
      · rfl
      · exact ih _
    | some q => rw [List.cons_append, scan, scan]; exact ih _

theorem Closed.append {a b : Str} (ha : Closed a) (hb : Closed b) : Closed (a ++ b) := by
  unfold Closed at *; rw [scan_append, ha]; exact hb

theorem cut_scan {m m' : Option Char} {a : Str} (h : scan m a = some m') (cur r : Str) :
    cut m cur (a ++ r) = cut m' (a.reverse ++ cur) r := by
  induction a generalizing m cur with
  | nil => cases m <;> (simp [scan] at h; subst h; rfl)
  | cons c a ih =>
    cases m with
    | none =>
      rw [scan] at h
      split at h
      · cases h
      · rename_i hc
        rw [List.cons_append, cut, if_neg hc, ih h]
        simp
    | some q =>
      rw [scan] at h
      rw [List.cons_append, cut, ih h]
      simp

theorem scan_plain {s : Str} (h : ∀ c ∈ s, c ≠ ';' ∧ c ≠ '"' ∧ c ≠ '\'') : scan none s = some none := by
  induction s with
  | nil => rfl
  | cons c s ih =>
    have := h c (by simp)
    rw [scan, if_neg this.1, if_neg (by simp [this.2])]
    exact ih (fun d hd => h d (by simp [hd]))

theorem scan_in_dq {n : Str} (h : '"' ∉ n) : scan (some '"') n = some (some '"') := by
  induction n with
  | nil => rfl
  | cons c n ih =>
    simp only [List.mem_cons, not_or] at h
    rw [scan, if_neg (fun e => h.1 e.symm)]
    exact ih h.2

theorem closed_quoted {n : Str} (h : '"' ∉ n) : Closed (quoted n) := by
  unfold Closed quoted
  rw [List.append_assoc, scan_append]
  show (scan (some '"') (n ++ c!"\"")) = _
  rw [scan_append, scan_in_dq h]
  rfl

/-- What a text contributes to a script: after any white space `pre`, reading goes on with other white space. -/
def Piece (txt : Str) (sts : List Stmt) : Prop :=
  ∀ pre rest : Str, (∀ c ∈ pre, blankC c = true) → ∃ pre' : Str, (∀ c ∈ pre', blankC c = true) ∧
    (cut none pre.reverse (txt ++ rest)).map readStmt = sts.map some ++ (cut none pre'.reverse rest).map readStmt

theorem Piece.nil : Piece [] [] := fun pre rest h => ⟨pre, h, rfl⟩

theorem Piece.append {a b : Str} {s t : List Stmt} (ha : Piece a s) (hb : Piece b t) : Piece (a ++ b) (s ++ t) := by
  intro pre rest h
  obtain ⟨p1, h1, e1⟩ := ha pre (b ++ rest) h
  obtain ⟨p2, h2, e2⟩ := hb p1 rest h1
  refine ⟨p2, h2, ?_⟩
  rw [List.append_assoc, e1, e2]
  simp

theorem Piece.newline : Piece c!"\n" [] := by
  intro pre rest h
  refine ⟨pre ++ ['\n'], ?_, ?_⟩
  · intro c hc
    rcases List.mem_append.1 hc with hc | hc
    · exact h c hc
    · simp at hc; subst hc; rfl
  · simp [cut]

theorem skip_blank {pre s : Str} (h : ∀ c ∈ pre, blankC c = true) : skip (pre ++ s) = skip s := by
  induction pre with
  | nil => rfl
  | cons c pre ih =>
    unfold skip
    rw [List.cons_append, List.dropWhile_cons, if_pos (h c (by simp))]
    exact ih (fun d hd => h d (by simp [hd]))

theorem kw_blank {pre s k : Str} (h : ∀ c ∈ pre, blankC c = true) : kw k (pre ++ s) = kw k s := by
  unfold kw eat; rw [skip_blank h]

theorem readStmt_blank {pre s : Str} (h : ∀ c ∈ pre, blankC c = true) : readStmt (pre ++ s) = readStmt s := by
  unfold readStmt; simp only [kw_blank h]

/-- A statement and its end of line. -/
theorem Piece.stmt {body : Str} {st : Stmt} (hc : Closed body) (hr : readStmt body = some st) : Piece (body ++ c!";\n") [st] := by
  intro pre rest h
  refine ⟨['\n'], by simp [blankC], ?_⟩
  rw [List.append_assoc, cut_scan hc]
  simp only [List.cons_append, List.nil_append, cut, if_true, List.map_cons, List.map_nil]
  congr 1
  rw [List.reverse_append, List.reverse_reverse, List.reverse_reverse, readStmt_blank h, hr]

theorem allSome_map_some {α : Type} (l : List α) : allSome (l.map some) = some l := by
  induction l with
  | nil => rfl
  | cons a l ih => simp [allSome, ih]

theorem Piece.read {txt : Str} {sts : List Stmt} (h : Piece txt sts) : readScript txt = some sts := by
  obtain ⟨p, -, e⟩ := h [] [] (by simp)
  simp only [List.append_nil, List.reverse_nil] at e
  unfold readScript
  rw [e]
  simp [cut, allSome_map_some]

/-! ## Reading names, lists and types -/

theorem upTo_spec {q : Char} {n : Str} (h : q ∉ n) (r : Str) : upTo q (n ++ q :: r) = some (n, r) := by
  have h1 : (n ++ q :: r).dropWhile (· ≠ q) = q :: r := by
    induction n with
    | nil => simp
    | cons c n ih =>
      simp only [List.mem_cons, not_or] at h
      rw [List.cons_append, List.dropWhile_cons, if_pos (by simpa using fun e => h.1 e.symm)]
      exact ih h.2
  have h2 : (n ++ q :: r).takeWhile (· ≠ q) = n := by
    clear h1
    induction n with
    | nil => simp
    | cons c n ih =>
      simp only [List.mem_cons, not_or] at h
      rw [List.cons_append, List.takeWhile_cons, if_pos (by simpa using fun e => h.1 e.symm), ih h.2]
  unfold upTo
  rw [h1, h2]

theorem name_spec {n : Str} (h : '"' ∉ n) (r : Str) : name ('"' :: (n ++ '"' :: r)) = some (n, r) := by
  show upTo '"' (n ++ '"' :: r) = _
  exact upTo_spec h r

theorem name_sp (s : Str) : name (' ' :: s) = name s := rfl

theorem qname_spec {a b : Str} (ha : '"' ∉ a) (hb : '"' ∉ b) (r : Str) :
    qname ('"' :: (a ++ '"' :: '.' :: '"' :: (b ++ '"' :: r))) = some (a, b, r) := by
  unfold qname
  rw [name_spec ha]
  show ((name ('"' :: (b ++ '"' :: r))).bind _) = _
  rw [name_spec hb]
  rfl

theorem qname_sp (s : Str) : qname (' ' :: s) = qname s := rfl

theorem listGo_inside {n : Str} (h : '"' ∉ n) (cur : Str) (acc : List Str) (r : Str) :
    listGo (.inside cur) acc (n ++ '"' :: r) = listGo .after ((cur.reverse ++ n) :: acc) r := by
  induction n generalizing cur with
  | nil => simp [listGo]
  | cons c n ih =>
    simp only [List.mem_cons, not_or] at h
    rw [List.cons_append, listGo, if_neg (fun e => h.1 e.symm), ih h.2]
    simp

theorem listGo_names (l : List Str) (h : ∀ n ∈ l, '"' ∉ n) (acc : List Str) (r : Str) (st : LSt) (hst : st = .start ∨ (st = .before ∧ l ≠ [])) :
    listGo st acc (joinS c!", " (l.map quoted) ++ ')' :: r) = some (acc.reverse ++ l, r) := by
  induction l generalizing acc st with
  | nil =>
    rcases hst with rfl | ⟨_, h⟩
    · simp [joinS, listGo, blankC]
    · exact absurd rfl h
  | cons n l ih =>
    have hn : '"' ∉ n := h n (by simp)
    have open_ : ∀ s, listGo st acc ('"' :: s) = listGo (.inside []) acc s := by
      intro s
      rcases hst with rfl | ⟨rfl, _⟩ <;> simp [listGo, blankC]
    cases l with
    | nil =>
      simp only [List.map_cons, List.map_nil, joinS, quoted, List.cons_append, List.nil_append, List.append_assoc]
      rw [open_, listGo_inside hn]
      simp [listGo, blankC]
    | cons m l =>
      simp only [List.map_cons, joinS, List.append_assoc]
      rw [show quoted n ++ (c!", " ++ (joinS c!", " (quoted m :: l.map quoted) ++ ')' :: r)) =
        '"' :: (n ++ '"' :: ',' :: ' ' :: (joinS c!", " ((m :: l).map quoted) ++ ')' :: r)) by simp [quoted]]
      rw [open_, listGo_inside hn]
      have e : ∀ (a : List Str) (s : Str), listGo .after a (',' :: ' ' :: s) = listGo .before a s := by
        intro a s; simp [listGo, blankC]
      rw [e, ih (fun k hk => h k (by simp [hk])) _ .before (.inr ⟨rfl, by simp⟩)]
      simp

theorem names_spec {l : List Str} (h : ∀ n ∈ l, '"' ∉ n) (r : Str) :
    names ('(' :: (listToString l true ++ ')' :: r)) = some (l, r) := by
  have := listGo_names l h [] r .start (.inl rfl)
  simpa [names, eat, skip, blankC, listToString] using this

theorem names_sp (s : Str) : names (' ' :: s) = names s := rfl

theorem closed_list {l : List Str} (h : ∀ n ∈ l, '"' ∉ n) : Closed (listToString l true) := by
  simp only [listToString, if_true]
  induction l with
  | nil => rfl
  | cons n l ih =>
    have hn := closed_quoted (h n (by simp))
    cases l with
    | nil => exact hn
    | cons m l =>
      simp only [List.map_cons, joinS]
      exact (hn.append (by decide)).append (ih (fun k hk => h k (by simp [hk])))

theorem wordC_ne {c : Char} (h : wordC c = true) : c ≠ ';' ∧ c ≠ '"' ∧ c ≠ '\'' ∧ blankC c = false ∧ c ≠ '(' := by
  unfold wordC at h
  simp only [Bool.not_eq_true', Bool.or_eq_false_iff, decide_eq_false_iff_not] at h
  tauto

theorem closed_type {ty : Str} (h : PlainType ty) : Closed ty := by
  obtain ⟨w, -, hw, h⟩ := h
  have cw : Closed w := scan_plain (fun c hc => by have := wordC_ne (hw c hc); tauto)
  rcases h with rfl | ⟨a, ha, rfl⟩
  · exact cw
  · exact ((cw.append (by decide)).append (scan_plain (fun c hc => (ha c hc).2))).append (by decide)

theorem takeWhile_word {w r : Str} (hw : ∀ c ∈ w, wordC c = true) (hr : endOfWord r = true) :
    (w ++ r).takeWhile wordC = w ∧ (w ++ r).dropWhile wordC = r := by
  induction w with
  | nil =>
    cases r with
    | nil => exact ⟨rfl, rfl⟩
    | cons c r =>
      simp only [endOfWord, Bool.not_eq_true'] at hr
      simp [hr]
  | cons c w ih =>
    have := ih (fun d hd => hw d (by simp [hd]))
    have hc := hw c (by simp)
    simp [hc, this]

theorem skip_nonblank {s : Str} (h : ∀ c, s.head? = some c → blankC c = false) : skip s = s := by
  cases s with
  | nil => rfl
  | cons c s => simp [skip, h c rfl]

theorem ctype_spec {ty : Str} (h : PlainType ty) {r : Str} (hr : endOfWord r = true) (hp : r.head? ≠ some '(') :
    ctype (ty ++ r) = some (ty, r) := by
  obtain ⟨w, hne, hw, h⟩ := h
  have hs : ∀ x : Str, skip (w ++ x) = w ++ x := by
    intro x
    apply skip_nonblank
    cases w with
    | nil => exact absurd rfl hne
    | cons c w =>
      intro d hd
      simp at hd; subst hd
      exact (wordC_ne (hw c (by simp))).2.2.2.1
  rcases h with rfl | ⟨a, ha, rfl⟩
  · unfold ctype
    obtain ⟨e1, e2⟩ := takeWhile_word hw hr
    simp only [hs, e1, e2, if_neg hne]
    split
    · rename_i r' ; simp at hp
    · rfl
  · unfold ctype
    have e : w ++ c!"(" ++ a ++ c!")" ++ r = w ++ ('(' :: (a ++ ')' :: r)) := by simp
    obtain ⟨e1, e2⟩ := takeWhile_word (r := '(' :: (a ++ ')' :: r)) hw (by rfl)
    rw [e]
    simp only [hs, e1, e2, if_neg hne]
    rw [upTo_spec (fun hc => (ha _ hc).1 rfl)]
    simp

theorem ctype_sp (s : Str) : ctype (' ' :: s) = ctype s := rfl

end Verif
