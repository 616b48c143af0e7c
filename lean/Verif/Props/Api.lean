import Verif.Spec.Api
import Verif.Lemmas.Statements
import Verif.Props.Constructors
/-
Properties of sequences of calls on a configuration and on a validation result: C106, C107.
-/

namespace Verif.Props
open Verif Verif.Spec

/-! ## C106 -/

/-- Setting names one after the other. -/
def setAll (cfg : Config) (ss : List (Str × CfgVal)) : Config := ss.foldl (fun c p => Dict.set c p.1 p.2) cfg

theorem setAll_lines {ls : List Str} {ss : List (Str × CfgVal)} (h : SettingsOf ls ss) (cfg : Config) : ls.foldl configLine cfg = setAll cfg ss := by
  induction h generalizing cfg with
  | nil => rfl
  | @other l ls ss hn _ ih =>
    have : configSetting l = none := by
      cases hs : configSetting l with
      | none => rfl
      | some p => exact absurd (sets_iff.2 hs) (hn p.1 p.2)
    rw [List.foldl_cons, configLine_setting, this]
    exact ih cfg
  | sets hs _ ih =>
    rw [List.foldl_cons, configLine_setting, sets_iff.1 hs]
    exact ih _

theorem settings_exist (ls : List Str) : ∃ ss, SettingsOf ls ss := by
  induction ls with
  | nil => exact ⟨[], .nil⟩
  | cons l ls ih =>
    obtain ⟨ss, h⟩ := ih
    cases hs : configSetting l with
    | none => exact ⟨ss, .other (fun k v hv => by rw [sets_iff, hs] at hv; cases hv) h⟩
    | some p => exact ⟨_, .sets (sets_iff.2 hs) h⟩

theorem run_puts {c : CfgCall} {ss : List (Str × CfgVal)} (h : Puts c ss) (cfg : Config) : CfgCall.run cfg c = setAll cfg ss := by
  cases h with
  | set k v => rfl
  | file hf hl hs =>
    simp only [CfgCall.run, loadConfig, hf]
    rw [textLines_iff.1 hl]
    exact setAll_lines hs cfg
  | broken hf hl hs =>
    simp only [CfgCall.run, loadConfig, hf]
    rw [textLines_iff.1 hl]
    exact setAll_lines hs cfg
  | nothing hf => rcases hf with hf | hf <;> simp only [CfgCall.run, loadConfig, hf] <;> rfl

theorem run_all {calls : List CfgCall} {pss : List (List (Str × CfgVal))} (h : List.Forall₂ Puts calls pss) (cfg : Config) :
    calls.foldl CfgCall.run cfg = setAll cfg pss.flatten := by
  induction h generalizing cfg with
  | nil => rfl
  | cons hc _ ih =>
    rw [List.foldl_cons, run_puts hc, ih]
    simp [setAll]

theorem keys_setAll (ss : List (Str × CfgVal)) : (setAll [] ss).keys.Nodup ∧ ∀ k, k ∈ (setAll [] ss).keys ↔ k ∈ ss.map Prod.fst := by
  induction ss using snocInd with
  | nil => simp [setAll, Dict.keys]
  | append_singleton ss p ih =>
    have e : setAll [] (ss ++ [p]) = Dict.set (setAll [] ss) p.1 p.2 := by simp [setAll]
    rw [e]
    refine ⟨Dict.nodup_set ih.1 _ _, fun k => ?_⟩
    rw [Dict.mem_keys_set, ih.2]
    simp [or_comm]

theorem get_setAll (ss : List (Str × CfgVal)) (k : Str) (v : CfgVal) : Dict.get? (setAll [] ss) k = some v ↔ LastSet ss k v := by
  induction ss using snocInd with
  | nil =>
    simp only [setAll, List.foldl_nil, Dict.get?, LastSet]
    constructor
    · intro h; cases h
    · rintro ⟨pre, post, e, -⟩
      cases pre <;> cases e
  | append_singleton ss p ih =>
    obtain ⟨k', v'⟩ := p
    have e : setAll [] (ss ++ [(k', v')]) = Dict.set (setAll [] ss) k' v' := by simp [setAll]
    rw [e]
    by_cases hk : k = k'
    · subst hk
      rw [Dict.get?_set_self]
      constructor
      · intro h
        cases h
        exact ⟨ss, [], rfl, by simp⟩
      · rintro ⟨pre, post, e, hn⟩
        rcases List.eq_nil_or_concat post with rfl | ⟨post, q, rfl⟩
        · have := (List.append_inj' e rfl).2
          cases this
          rfl
        · rw [List.concat_eq_append, ← List.cons_append, ← List.append_assoc] at e
          have := (List.append_inj' e rfl).2
          cases this
          exact absurd (by simp) hn
    · rw [Dict.get?_set_ne _ _ hk, ih]
      constructor
      · rintro ⟨pre, post, rfl, hn⟩
        exact ⟨pre, post ++ [(k', v')], by simp, by simpa using ⟨by simpa using hn, hk⟩⟩
      · rintro ⟨pre, post, e, hn⟩
        rcases List.eq_nil_or_concat post with rfl | ⟨post, q, rfl⟩
        · have := (List.append_inj' e rfl).2
          cases this
          exact absurd rfl hk
        · rw [List.concat_eq_append, ← List.cons_append, ← List.append_assoc] at e
          obtain ⟨e1, e2⟩ := List.append_inj' e rfl
          cases e2
          refine ⟨pre, post, e1, fun h => hn (by simp only [List.concat_eq_append, List.map_append, List.mem_append]; exact .inl h)⟩

/-- C106: it is determined what each call sets. -/
theorem C106_calls (calls : List CfgCall) : ∃ pss, List.Forall₂ Puts calls pss := by
  induction calls with
  | nil => exact ⟨[], .nil⟩
  | cons c calls ih =>
    obtain ⟨pss, h⟩ := ih
    have one : ∃ ss, Puts c ss := by
      cases c with
      | set k v => exact ⟨_, .set k v⟩
      | load fs f =>
        cases hf : fs f with
        | none => exact ⟨_, .nothing (.inl hf)⟩
        | some st =>
          cases st with
          | unreadable => exact ⟨_, .nothing (.inr hf)⟩
          | text content =>
            obtain ⟨ss, hs⟩ := settings_exist (fileLines content)
            exact ⟨ss, .file hf (textLines_iff.2 rfl) hs⟩
          | undecodable before m =>
            obtain ⟨ss, hs⟩ := settings_exist (fileLines before)
            exact ⟨ss, .broken hf (textLines_iff.2 rfl) hs⟩
    obtain ⟨ss, hs⟩ := one
    exact ⟨ss :: pss, .cons hs h⟩

/-- C106: after any calls on a new configuration, a name has the value it was set to last, by a call or by a line of a file; a name that was never set gives `None` or the
default; and the length is the number of names that were set. -/
theorem C106_last_set {calls : List CfgCall} {pss : List (List (Str × CfgVal))} (h : List.Forall₂ Puts calls pss) :
    let cfg := calls.foldl CfgCall.run Config.new
    (∀ k v, cfg.getItem k = some v ↔ LastSet pss.flatten k v) ∧
    (∀ k, cfg.getItem k = none ↔ k ∉ pss.flatten.map Prod.fst) ∧
    (∀ k d v, cfg.value k d = v ↔ LastSet pss.flatten k v ∨ (k ∉ pss.flatten.map Prod.fst ∧ v = d)) ∧
    (∀ names : List Str, names.Nodup → (∀ k, k ∈ names ↔ k ∈ pss.flatten.map Prod.fst) → cfg.len = names.length) := by
  intro cfg
  have e : cfg = setAll [] pss.flatten := run_all h _
  have none_iff : ∀ k, Dict.get? cfg k = none ↔ k ∉ pss.flatten.map Prod.fst := by
    intro k
    rw [Dict.get?_eq_none_iff, e, (keys_setAll _).2]
  have some_iff : ∀ k v, Dict.get? cfg k = some v ↔ LastSet pss.flatten k v := by
    intro k v
    rw [e]
    exact get_setAll _ k v
  refine ⟨some_iff, none_iff, fun k d v => ?_, fun names hn hk => ?_⟩
  · unfold Config.value
    rw [← some_iff, ← none_iff]
    cases Dict.get? cfg k with
    | none => simp [eq_comm]
    | some u => simp
  · have hp : cfg.keys.Perm names := by
      rw [e, List.perm_ext_iff_of_nodup (keys_setAll _).1 hn]
      intro k
      rw [(keys_setAll _).2, hk]
    exact hp.length_eq

/-- C106: two configurations are equal exactly if the same names were set, last to the same values. -/
theorem C106_equal {calls calls' : List CfgCall} {pss pss' : List (List (Str × CfgVal))} (h : List.Forall₂ Puts calls pss) (h' : List.Forall₂ Puts calls' pss') :
    Config.eq (calls.foldl CfgCall.run Config.new) (calls'.foldl CfgCall.run Config.new) = true ↔
      (∀ k v, LastSet pss.flatten k v → ∃ u, LastSet pss'.flatten k u ∧ SameValue v u) ∧
      (∀ k v, LastSet pss'.flatten k v → ∃ u, LastSet pss.flatten k u ∧ SameValue v u) := by
  have e : calls.foldl CfgCall.run Config.new = setAll [] pss.flatten := run_all h _
  have e' : calls'.foldl CfgCall.run Config.new = setAll [] pss'.flatten := run_all h' _
  rw [e, e', C44_equal _ _ (keys_setAll _).1 (keys_setAll _).1]
  simp only [Dict.mem_iff_get? (keys_setAll _).1, get_setAll]

/-- A setting by a call, one by a file, and the same name again. -/
example : List.Forall₂ Puts [.set c!"a" (.int 1), .load (oneFile c!"f" c!"b=x\njunk\na=2\n") c!"f", .load (fun _ => none) c!"g", .set c!"b" (.flt 2)]
    [[(c!"a", .int 1)], [(c!"b", .text c!"x"), (c!"a", .text c!"2")], [], [(c!"b", .flt 2)]] := by
  refine .cons (.set _ _) (.cons (.file (content := c!"b=x\njunk\na=2\n") (ls := [c!"b=x", c!"junk", c!"a=2"]) rfl ?_ ?_) (.cons (.nothing (.inl rfl)) (.cons (.set _ _) .nil)))
  · exact textLines_iff.2 (by decide)
  · refine .sets (sets_iff.2 (by decide)) (.other (fun k v h => ?_) (.sets (sets_iff.2 (by decide)) .nil))
    rw [sets_iff, show configSetting c!"junk" = none from by decide] at h
    cases h

/-- What becomes of them. -/
example : [CfgCall.set c!"a" (.int 1), .load (oneFile c!"f" c!"b=x\njunk\na=2\n") c!"f", .load (fun _ => none) c!"g", .set c!"b" (.flt 2)].foldl CfgCall.run Config.new =
    [(c!"a", .text c!"2"), (c!"b", .flt 2)] := by decide +kernel

/-! ## C107 -/

/-- C107: a validation result has what was added, in the order of the calls and with the level of the call; it is valid exactly if nothing was added, not even an information; and
`eprint_issues` prints one line for each. -/
theorem C107_all_added {calls : List ValidationResult.Call} {xs : List (Str × Level)} (h : List.Forall₂ Adds calls xs) :
    let r := calls.foldl ValidationResult.Call.run ValidationResult.new
    r.issues = xs ∧ (r.isValid = true ↔ calls = []) ∧
      List.Forall₂ (fun (x : Str × Level) line => ∃ word, (x.2, word) ∈ [(Level.info, c!"Information"), (.warning, c!"Warning"), (.error, c!"Error")] ∧
        line = word ++ c!":  " ++ x.1) xs r.lines := by
  have run : ∀ {c : ValidationResult.Call} {x : Str × Level} (r : ValidationResult), Adds c x → c.run r = r.addIssue x.1 x.2 := by
    intro c x r h
    cases h <;> rfl
  have gen : ∀ r : ValidationResult, (calls.foldl ValidationResult.Call.run r).issues = r.issues ++ xs ∧
      ((calls.foldl ValidationResult.Call.run r).isValid = true ↔ r.isValid = true ∧ calls = []) := by
    induction h with
    | nil => intro r; simp
    | cons hc _ ih =>
      intro r
      rw [List.foldl_cons, run r hc]
      obtain ⟨h1, h2⟩ := ih (r.addIssue _ _)
      rw [h1, h2]
      simp [ValidationResult.addIssue]
  intro r
  obtain ⟨h1, h2⟩ := gen .new
  have h1 : r.issues = xs := h1
  have h2 : r.isValid = true ↔ calls = [] := h2.trans ⟨And.right, fun h => ⟨rfl, h⟩⟩
  refine ⟨h1, h2, ?_⟩
  unfold ValidationResult.lines
  rw [h1]
  clear h1 h2 gen run
  clear r
  clear h1 h2 h
  induction xs with
  | nil => exact .nil
  | cons x xs ih =>
    refine .cons ⟨x.2.text, ?_, rfl⟩ ih
    cases x.2 <;> simp [Level.text]

/-- C107: it is determined what each call adds. -/
theorem C107_calls (calls : List ValidationResult.Call) : ∃ xs, List.Forall₂ Adds calls xs := by
  induction calls with
  | nil => exact ⟨[], .nil⟩
  | cons c calls ih =>
    obtain ⟨xs, h⟩ := ih
    cases c with
    | issue s l =>
      cases l with
      | none => exact ⟨_, .cons (.standard s) h⟩
      | some l => exact ⟨_, .cons (.issue s l) h⟩
    | error s => exact ⟨_, .cons (.error s) h⟩
    | warning s => exact ⟨_, .cons (.warning s) h⟩
    | info s => exact ⟨_, .cons (.info s) h⟩

example : ([ValidationResult.Call.info c!"a", .issue c!"b" none, .warning c!"c"].foldl ValidationResult.Call.run ValidationResult.new).lines =
    [c!"Information:  a", c!"Error:  b", c!"Warning:  c"] := by decide

end Verif.Props
