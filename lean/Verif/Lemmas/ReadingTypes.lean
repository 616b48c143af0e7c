import Verif.Lemmas.ReadingAlter
import Verif.Props.Types
import Verif.Lemmas.Review
/-
Which type a column gets, whatever the text of the type is.
-/

namespace Verif
open Spec

/-- The chain of tests for a list of rules. -/
def chain (t : Str) : List (Str × Option Str) → Except PyErr Str
  | [] => .ok c!"UNKNOWN"
  | (w, some ty) :: l => if hasSub w t then .ok ty else chain t l
  | (w, none) :: l => if hasSub w t then convertNumber t else chain t l

/-- What a rule gives. -/
def ruleGives (t : Str) : Option (Str × Option Str) → Except PyErr Str
  | some (_, some ty) => .ok ty
  | some (_, none) => convertNumber t
  | none => .ok c!"UNKNOWN"

theorem chain_find (t : Str) : ∀ l : List (Str × Option Str), chain t l = ruleGives t (l.find? (fun r => hasSub r.1 t))
  | [] => rfl
  | (w, some ty) :: l => by
    rw [chain]
    by_cases h : hasSub w t = true
    · rw [if_pos h, List.find?_cons_of_pos (by exact h)]
      rfl
    · rw [if_neg h, List.find?_cons_of_neg (by exact h), chain_find t l]
  | (w, none) :: l => by
    rw [chain]
    by_cases h : hasSub w t = true
    · rw [if_pos h, List.find?_cons_of_pos (by exact h)]
      rfl
    · rw [if_neg h, List.find?_cons_of_neg (by exact h), chain_find t l]

theorem if_or {A : Type} {a b : Bool} {x y : A} : (if (a || b) = true then x else y) = if a = true then x else if b = true then x else y := by
  cases a <;> cases b <;> rfl

theorem convertType_chain (d : Str) : convertType d = chain (typeText d) typeRules := by
  unfold convertType
  dsimp only
  simp only [if_or]
  rfl

theorem find_rule {t : Str} {r : Str × Option Str} : typeRules.find? (fun r => hasSub r.1 t) = some r ↔
    ∃ pre post, typeRules = pre ++ r :: post ∧ (∀ q ∈ pre, hasSub q.1 t = false) ∧ hasSub r.1 t = true := by
  rw [List.find?_eq_some_iff_append]
  constructor
  · rintro ⟨h1, pre, post, e, h2⟩
    exact ⟨pre, post, e, fun q hq => by simpa using h2 q hq, h1⟩
  · rintro ⟨pre, post, e, h1, h2⟩
    exact ⟨h2, pre, post, e, fun q hq => by simpa using h1 q hq⟩

/-- A text with at most one closing parenthesis, at its end. -/
def OneClose (h : Str) : Prop := ')' ∉ h ∨ ∃ a, h = a ++ [')'] ∧ ')' ∉ a

theorem argsOf_parts {h args : Str} (ho : OneClose h) : ArgsOf h args ↔
    ∃ w, h = w ++ args ++ [')'] ∧ ((w = [] ∧ '(' ∉ args) ∨ ∃ v, w = v ++ ['('] ∧ '(' ∉ v) ∧ ')' ∉ w ++ args := by
  constructor
  · rintro ⟨h1, h2⟩
    have key : ∀ w, h = w ++ args ++ [')'] → ')' ∉ w ++ args := by
      intro w e
      rcases ho with hn | ⟨a, e', ha⟩
      · exact absurd (by rw [e]; simp) hn
      · rw [e] at e'
        rw [List.append_inj_left' e' rfl]
        exact ha
    rcases h2 with ⟨e, h2⟩ | ⟨v, e, h2⟩
    · exact ⟨[], by simpa using e, .inl ⟨rfl, h2⟩, key [] (by simpa using e)⟩
    · refine ⟨v ++ ['('], by rw [e]; simp, .inr ⟨v, rfl, h2⟩, key (v ++ ['(']) (by rw [e]; simp)⟩
  · rintro ⟨w, e, h2, h3⟩
    refine ⟨fun hm => h3 (by simp [hm]), ?_⟩
    rcases h2 with ⟨rfl, h2⟩ | ⟨v, rfl, h2⟩
    · exact .inl ⟨by simpa using e, h2⟩
    · exact .inr ⟨v, by rw [e]; simp, h2⟩

theorem args_exist {h : Str} (ho : OneClose h) (hc : ')' ∈ h) : ∃ args, ArgsOf h args := by
  rcases ho with hn | ⟨a, rfl, ha⟩
  · exact absurd hc hn
  · by_cases hp : '(' ∈ a
    · obtain ⟨v, r, rfl, hv⟩ := split_first hp
      exact ⟨r, fun hm => ha (by simp [hm]), .inr ⟨v, by simp, hv⟩⟩
    · exact ⟨a, ha, .inl ⟨rfl, hp⟩⟩

theorem args_slice {h args : Str} (ho : OneClose h) (ha : ArgsOf h args) : hasSub c!")" h = true ∧ pySlice h (pyFind c!"(" h + 1) (pyFind c!")" h) = args := by
  obtain ⟨w, rfl, h1, h2⟩ := (argsOf_parts ho).1 ha
  exact ⟨hasSub_single.2 (by simp), Props.numsize_eq h1 h2⟩

theorem convertNumber_args {h args : Str} (ho : OneClose h) (ha : ArgsOf h args) : convertNumber h =
    if hasSub c!"," args then
      match splitC ',' args with
      | [first, second] =>
        if strip second = c!"0" then
          if first = c!"*" then .ok c!"BIGINT"
          else match pyInt first with
            | none => .error .value
            | some n => if n > 9 then .ok c!"BIGINT" else .ok c!"INT"
        else .ok c!"DOUBLE"
      | _ => .error .value
    else .ok c!"INT" := by
  obtain ⟨h1, h2⟩ := args_slice ho ha
  unfold convertNumber
  rw [if_pos h1, h2]
  rfl

theorem comma_two {a b : Str} (ha : ',' ∉ a) (hb : ',' ∉ b) : hasSub c!"," (a ++ ',' :: b) = true ∧ splitC ',' (a ++ ',' :: b) = [a, b] := by
  refine ⟨hasSub_single.2 (by simp), ?_⟩
  rw [splitC_cons ha, splitC_plain hb]

theorem zero_comma {b : Str} (h : Padded b c!"0") : ',' ∉ b ∧ strip b = c!"0" := by
  refine ⟨?_, (padded_iff.1 h).symm⟩
  obtain ⟨⟨a, c, ha, hc, rfl⟩, _⟩ := h
  simp only [List.mem_append, not_or]
  exact ⟨⟨Props.isSpace_comma ha, by decide⟩, Props.isSpace_comma hc⟩

theorem star_int : pyInt c!"*" = none := by decide

theorem numberType_iff {h ty : Str} (ho : OneClose h) : NumberType h ty ↔ convertNumber h = .ok ty := by
  constructor
  · intro hn
    cases hn with
    | bare hc =>
      unfold convertNumber
      rw [if_neg (by rw [hasSub_single]; exact hc)]
    | one ha hc => rw [convertNumber_args ho ha, if_neg (by rw [hasSub_single]; exact hc)]
    | scale ha h1 h2 hp hz =>
      obtain ⟨e1, e2⟩ := comma_two h1 h2
      rw [convertNumber_args ho ha, if_pos e1, e2]
      dsimp only
      rw [← padded_iff.1 hp, if_neg hz]
    | @star b ha hp =>
      obtain ⟨e1, e2⟩ := comma_two (a := c!"*") (by decide) (zero_comma hp).1
      rw [convertNumber_args ho ha]
      show (if hasSub c!"," (c!"*" ++ ',' :: b) = true then _ else _) = _
      rw [if_pos e1]
      show (match splitC ',' (c!"*" ++ ',' :: b) with | [first, second] => _ | _ => _) = _
      rw [e2]
      dsimp only
      rw [(zero_comma hp).2, if_pos rfl, if_pos rfl]
    | large ha h1 hp hi h9 =>
      obtain ⟨e1, e2⟩ := comma_two h1 (zero_comma hp).1
      rw [convertNumber_args ho ha, if_pos e1, e2]
      dsimp only
      rw [(zero_comma hp).2, if_pos rfl, if_neg, (pyInt_value _ _).2 hi]
      · dsimp only
        rw [if_pos h9]
      · rintro rfl
        have := (pyInt_value _ _).2 hi
        rw [star_int] at this
        cases this
    | small ha h1 hp hi h9 =>
      obtain ⟨e1, e2⟩ := comma_two h1 (zero_comma hp).1
      rw [convertNumber_args ho ha, if_pos e1, e2]
      dsimp only
      rw [(zero_comma hp).2, if_pos rfl, if_neg, (pyInt_value _ _).2 hi]
      · dsimp only
        rw [if_neg (by omega)]
      · rintro rfl
        have := (pyInt_value _ _).2 hi
        rw [star_int] at this
        cases this
  · intro hn
    by_cases hc : ')' ∈ h
    · obtain ⟨args, ha⟩ := args_exist ho hc
      rw [convertNumber_args ho ha] at hn
      by_cases hm : ',' ∈ args
      · rw [if_pos (hasSub_single.2 hm)] at hn
        split at hn
        · rename_i first second hs
          obtain ⟨rfl, h1, h2⟩ := Props.splitC_two hs
          split_ifs at hn with hz hst
          · cases hn
            subst hst
            exact .star ha (padded_iff.2 hz.symm)
          · cases hi : pyInt first with
            | none => rw [hi] at hn; cases hn
            | some n =>
              rw [hi] at hn
              dsimp only at hn
              split_ifs at hn with h9
              · cases hn
                exact .large ha h1 (padded_iff.2 hz.symm) ((pyInt_value _ _).1 hi) h9
              · cases hn
                exact .small ha h1 (padded_iff.2 hz.symm) ((pyInt_value _ _).1 hi) (by omega)
          · cases hn
            exact .scale ha h1 h2 (padded_iff.2 rfl) hz
        · cases hn
      · rw [if_neg (by rw [hasSub_single]; exact hm)] at hn
        cases hn
        exact .one ha hm
    · unfold convertNumber at hn
      rw [if_neg (by rw [hasSub_single]; exact hc)] at hn
      cases hn
      exact .bare hc

theorem head_close {d h : Str} (hh : Head d h) : OneClose (lower h) := by
  cases hh with
  | paren a b ha => exact .inr ⟨lower a, by rw [lower_append]; rfl, by rw [Props.lower_paren]; exact ha⟩
  | blank a b h1 h2 =>
    left
    rw [Props.lower_paren]
    simp only [List.mem_append, List.mem_cons, not_or] at h1
    simp only [List.mem_append, List.mem_singleton, not_or]
    exact ⟨h1.1, h1.2.1⟩
  | whole _ h1 _ => exact .inl (by rw [Props.lower_paren]; exact h1)

/-- The type is the one of the specification. -/
theorem converts_iff {d ty : Str} : Converts d ty ↔ convertType d = .ok ty := by
  rw [convertType_chain, chain_find]
  constructor
  · intro h
    cases h with
    | @word h pre w _ post hh e h1 h2 =>
      have ht := Props.head_typeText hh
      rw [(find_rule (t := typeText d)).2 ⟨pre, post, e, fun q hq => by rw [ht]; exact lacks_sub.1 (h1 q hq), by rw [ht]; exact not_lacks_sub.1 h2⟩]
      rfl
    | @number h pre w post _ hh e h1 h2 hn =>
      have ht := Props.head_typeText hh
      rw [(find_rule (t := typeText d)).2 ⟨pre, post, e, fun q hq => by rw [ht]; exact lacks_sub.1 (h1 q hq), by rw [ht]; exact not_lacks_sub.1 h2⟩]
      rw [small_lower, numberType_iff (head_close hh)] at hn
      rw [ht]
      exact hn
    | @unknown h hh h1 =>
      have ht := Props.head_typeText hh
      rw [show typeRules.find? (fun r => hasSub r.1 (typeText d)) = none from List.find?_eq_none.2 (fun q hq => by
        rw [ht, lacks_sub.1 (h1 q hq)]; decide)]
      rfl
  · intro h
    obtain ⟨hd, hh⟩ := Props.head_exists d
    have ht := Props.head_typeText hh
    cases hf : typeRules.find? (fun r => hasSub r.1 (typeText d)) with
    | none =>
      rw [hf] at h
      cases h
      refine .unknown hh (fun q hq => lacks_sub.2 ?_)
      have := List.find?_eq_none.1 hf q hq
      rw [ht] at this
      simpa using this
    | some r =>
      rw [hf] at h
      obtain ⟨pre, post, e, h1, h2⟩ := find_rule.1 hf
      rw [ht] at h1 h2
      obtain ⟨w, _ | ty'⟩ := r
      · refine .number hh e (fun q hq => lacks_sub.2 (h1 q hq)) (not_lacks_sub.2 h2) ?_
        rw [small_lower, numberType_iff (head_close hh), ← ht]
        exact h
      · cases h
        exact .word hh e (fun q hq => lacks_sub.2 (h1 q hq)) (not_lacks_sub.2 h2)

end Verif
