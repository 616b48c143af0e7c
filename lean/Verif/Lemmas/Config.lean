import Verif.Config
import Verif.Spec.Config
import Verif.Lemmas.PyInt
import Verif.Lemmas.Dict
/-
Lemmas on configuration lines.
-/

namespace Verif
open Verif.Spec

theorem trim_iff {s : Str} : Trim s ↔ (∀ c t, s = c :: t → isSpace c = false) ∧ (∀ c t, s = t ++ [c] → isSpace c = false) := by
  constructor
  · rintro ⟨h1, h2⟩
    refine ⟨fun c t e => h1 c (by rw [e]; rfl), fun c t e => h2 c (by rw [e]; simp)⟩
  · rintro ⟨h1, h2⟩
    refine ⟨fun c e => ?_, fun c e => ?_⟩
    · cases s with
      | nil => cases e
      | cons x t => cases e; exact h1 c t rfl
    · obtain ⟨t, ht⟩ := List.getLast?_eq_some_iff.1 e
      exact h2 c t ht

theorem trim_strip (s : Str) : Trim (strip s) := by
  constructor
  · intro c hc
    unfold strip at hc
    have hne : lstrip s ≠ [] := by
      intro e; rw [e] at hc; simp [rstrip] at hc
    have hpre : rstrip (lstrip s) <+: lstrip s := rstrip_prefix _
    obtain ⟨t, ht⟩ := hpre
    cases hr : rstrip (lstrip s) with
    | nil => rw [hr] at hc; cases hc
    | cons x y =>
      rw [hr] at hc ht
      cases hc
      have := List.head?_dropWhile_not (p := isSpace) (l := s)
      unfold lstrip at ht
      rw [← ht] at this
      simpa using this
  · intro c hc
    unfold strip rstrip at hc
    rw [List.getLast?_reverse] at hc
    have := List.head?_dropWhile_not (p := isSpace) (l := (lstrip s).reverse)
    rw [hc] at this
    simpa using this

theorem padded_iff {s core : Str} : Padded s core ↔ core = strip s := by
  constructor
  · rintro ⟨⟨a, b, ha, hb, rfl⟩, h1, h2⟩
    exact (strip_pad ha hb (trim_iff.2 ⟨h1, h2⟩)).symm
  · rintro rfl
    obtain ⟨a, b, ha, hb, e⟩ := strip_decomp s
    exact ⟨⟨a, b, ha, hb, e⟩, trim_iff.1 (trim_strip s)⟩

theorem strip_white_left {a s : Str} (ha : White a) : strip (a ++ s) = strip s := by
  obtain ⟨p, q, hp, hq, e⟩ := strip_decomp s
  have : a ++ s = (a ++ p) ++ strip s ++ q := by
    rw [List.append_assoc, List.append_assoc, ← List.append_assoc p]; congr 1
  rw [this]
  refine strip_pad (fun c hc => ?_) hq (trim_strip s)
  rcases List.mem_append.1 hc with h | h
  exacts [ha c h, hp c h]

theorem strip_white_right {s b : Str} (hb : White b) : strip (s ++ b) = strip s := by
  obtain ⟨p, q, hp, hq, e⟩ := strip_decomp s
  have : s ++ b = p ++ strip s ++ (q ++ b) := by
    rw [← List.append_assoc]; congr 1
  rw [this]
  refine strip_pad hp (fun c hc => ?_) (trim_strip s)
  rcases List.mem_append.1 hc with h | h
  exacts [hq c h, hb c h]

/-- What a line sets, as `configLine` computes it. -/
def configSetting (line : Str) : Option (Str × Str) :=
  let line := strip ((splitC '#' line).headD [])
  if line ≠ [] ∧ hasSub c!"=" line then
    let key := strip (partitionS c!"=" line).1
    let value := strip (partitionS c!"=" line).2.2
    if key ≠ [] ∧ value ≠ [] then some (key, value) else none
  else none

theorem configLine_setting (cfg : Config) (line : Str) :
    configLine cfg line = match configSetting line with
      | some (k, v) => Dict.set cfg k (.text v)
      | none => cfg := by
  unfold configLine configSetting
  dsimp only
  split
  · split <;> rfl
  · rfl

theorem code_iff {line code : Str} : Code line code ↔ code = (splitC '#' line).headD [] := by
  constructor
  · rintro ⟨h, rfl | ⟨c, rfl⟩⟩
    · rw [splitC_plain h]; rfl
    · rw [splitC_cons h]; rfl
  · rintro rfl
    by_cases h : '#' ∈ line
    · obtain ⟨a, b, rfl, ha⟩ : ∃ a b, line = a ++ '#' :: b ∧ '#' ∉ a :=
        List.eq_append_cons_of_mem h |> fun ⟨x, y, h1, h2⟩ => ⟨x, y, h1, h2⟩
      rw [splitC_cons ha]
      exact ⟨ha, .inr ⟨b, rfl⟩⟩
    · rw [splitC_plain h]
      exact ⟨h, .inl rfl⟩

theorem eq_sign_not_white {a : Str} (h : White a) : '=' ∉ a := fun hm => by
  have := h _ hm
  revert this
  decide

/-- `configLine` reads exactly the settings of the specification. -/
theorem sets_iff {line k v : Str} : Sets line k v ↔ configSetting line = some (k, v) := by
  constructor
  · rintro ⟨code, a, b, hcode, rfl, ha, hk, hv, hk0, hv0⟩
    rw [padded_iff] at hk hv
    rw [code_iff] at hcode
    unfold configSetting
    rw [← hcode]
    dsimp only
    obtain ⟨p, q, hp, hq, e⟩ := strip_decomp (a ++ '=' :: b)
    have hm : '=' ∈ strip (a ++ '=' :: b) := by
      have : '=' ∈ a ++ '=' :: b := by simp
      rw [e] at this
      simp only [List.mem_append] at this
      rcases this with (h | h) | h
      · exact absurd h (eq_sign_not_white hp)
      · exact h
      · exact absurd h (eq_sign_not_white hq)
    obtain ⟨a', b', e', ha'⟩ : ∃ a' b', strip (a ++ '=' :: b) = a' ++ '=' :: b' ∧ '=' ∉ a' :=
      List.eq_append_cons_of_mem hm |> fun ⟨x, y, h1, h2⟩ => ⟨x, y, h1, h2⟩
    rw [if_pos ⟨by rw [e']; simp, hasSub_single.2 hm⟩, e', partitionS_char ha']
    dsimp only
    have hsplit : a = p ++ a' ∧ b = b' ++ q := by
      have h1 : splitC '=' (a ++ '=' :: b) = splitC '=' (p ++ a' ++ '=' :: (b' ++ q)) := by
        conv_lhs => rw [e, e']
        simp
      rw [splitC_cons ha, splitC_cons (by simp only [List.mem_append, not_or]; exact ⟨eq_sign_not_white hp, ha'⟩)] at h1
      have ea : a = p ++ a' := (List.cons.inj h1).1
      refine ⟨ea, ?_⟩
      have h2 := e
      rw [e', ea] at h2
      simpa using h2
    rw [hsplit.1, strip_white_left hp] at hk
    rw [hsplit.2, strip_white_right hq] at hv
    rw [← hk, ← hv, if_pos ⟨hk0, hv0⟩]
  · intro h
    unfold configSetting at h
    dsimp only at h
    split at h
    case isFalse => cases h
    case isTrue hc =>
      split at h
      case isFalse => cases h
      case isTrue hkv =>
        obtain ⟨p, q, hp, hq, e⟩ := strip_decomp ((splitC '#' line).headD [])
        obtain ⟨a', b', e', ha'⟩ : ∃ a' b', strip ((splitC '#' line).headD []) = a' ++ '=' :: b' ∧ '=' ∉ a' :=
          List.eq_append_cons_of_mem (hasSub_single.1 hc.2) |> fun ⟨x, y, h1, h2⟩ => ⟨x, y, h1, h2⟩
        rw [e', partitionS_char ha'] at h hkv
        dsimp only at h hkv
        cases h
        refine ⟨_, p ++ a', b' ++ q, code_iff.2 rfl, ?_, ?_, padded_iff.2 (strip_white_left hp).symm,
          padded_iff.2 (strip_white_right hq).symm, hkv.1, hkv.2⟩
        · rw [e, e']; simp
        · simp only [List.mem_append, not_or]; exact ⟨eq_sign_not_white hp, ha'⟩

/-- The lines read are those of the specification. -/
theorem fileLines_iff {content : Str} {ls : List Str} : Lines (newlines content) ls ↔ fileLines content = ls := by
  unfold fileLines
  generalize newlines content = s
  dsimp only
  constructor
  · intro h
    induction h with
    | nil => rfl
    | last l h1 h2 => rw [splitC_plain h2]; simp [h1]
    | line l rest ls h1 _ ih =>
      rw [splitC_cons h1]
      have hne := splitC_ne_nil '\n' rest
      rw [List.getLast?_cons, List.dropLast_cons_of_ne_nil hne]
      obtain ⟨x, hx⟩ : ∃ x, (splitC '\n' rest).getLast? = some x := by
        rw [← List.getLast?_isSome, Option.isSome_iff_exists] at hne; exact hne
      rw [hx] at ih ⊢
      simp only [Option.getD_some] at ih ⊢
      split
      · rename_i e; rw [if_pos e] at ih; rw [ih]
      · rename_i e; rw [if_neg e] at ih; rw [ih]
  · rintro rfl
    induction hn : s.length using Nat.strong_induction_on generalizing s with
    | _ n ih =>
      by_cases hm : '\n' ∈ s
      · obtain ⟨a, b, rfl, ha⟩ : ∃ a b, s = a ++ '\n' :: b ∧ '\n' ∉ a :=
          List.eq_append_cons_of_mem hm |> fun ⟨x, y, h1, h2⟩ => ⟨x, y, h1, h2⟩
        have hb := ih b.length (by rw [← hn]; simp; omega) b rfl
        rw [splitC_cons ha]
        have hne := splitC_ne_nil '\n' b
        rw [List.getLast?_cons, List.dropLast_cons_of_ne_nil hne]
        obtain ⟨x, hx⟩ : ∃ x, (splitC '\n' b).getLast? = some x := by
          rw [← List.getLast?_isSome, Option.isSome_iff_exists] at hne; exact hne
        rw [hx] at hb ⊢
        simp only [Option.getD_some] at hb ⊢
        split
        · rename_i e; rw [if_pos e] at hb; exact .line _ _ _ ha hb
        · rename_i e; rw [if_neg e] at hb; exact .line _ _ _ ha hb
      · rw [splitC_plain hm]
        by_cases he : s = []
        · subst he; exact .nil
        · simp only [List.getLast?_singleton, Option.some.injEq, he, if_false]
          exact .last s he hm

theorem newlines_id : ∀ {s : Str}, '\r' ∉ s → newlines s = s
  | [], _ => rfl
  | c :: t, h => by
    simp only [List.mem_cons, not_or] at h
    have hc : c ≠ '\r' := Ne.symm h.1
    rw [newlines.eq_def]
    split
    · rename_i e; cases e
    · rename_i e; cases e; exact absurd rfl hc
    · rename_i e; cases e; exact absurd rfl hc
    · rename_i e; cases e; rw [newlines_id h.2]

/-! ## What is said about a line -/

theorem strip_nil_iff {s : Str} : strip s = [] ↔ White s := by
  constructor
  · intro h
    obtain ⟨a, b, ha, hb, e⟩ := strip_decomp s
    rw [h] at e
    rw [e]
    intro c hc
    simp only [List.append_nil, List.mem_append] at hc
    rcases hc with hc | hc
    exacts [ha c hc, hb c hc]
  · intro h
    refine (padded_iff.1 ⟨⟨s, [], h, by simp [White], by simp⟩, ?_, ?_⟩).symm
    · intro c t e; cases e
    · intro c t e
      simp at e

/-- The parts of the code of a line with an equal sign. -/
theorem strip_sides {a b : Str} (ha : '=' ∉ a) : ∃ a' b', strip (a ++ '=' :: b) = a' ++ '=' :: b' ∧ '=' ∉ a' ∧ strip a' = strip a ∧ strip b' = strip b := by
  obtain ⟨p, q, hp, hq, e⟩ := strip_decomp (a ++ '=' :: b)
  have hm : '=' ∈ strip (a ++ '=' :: b) := by
    have : '=' ∈ a ++ '=' :: b := by simp
    rw [e] at this
    simp only [List.mem_append] at this
    rcases this with (h | h) | h
    · exact absurd h (eq_sign_not_white hp)
    · exact h
    · exact absurd h (eq_sign_not_white hq)
  obtain ⟨a', b', e', ha'⟩ : ∃ a' b', strip (a ++ '=' :: b) = a' ++ '=' :: b' ∧ '=' ∉ a' :=
    List.eq_append_cons_of_mem hm |> fun ⟨x, y, h1, h2⟩ => ⟨x, y, h1, h2⟩
  have h1 : splitC '=' (a ++ '=' :: b) = splitC '=' (p ++ a' ++ '=' :: (b' ++ q)) := by
    conv_lhs => rw [e, e']
    simp
  rw [splitC_cons ha, splitC_cons (by simp only [List.mem_append, not_or]; exact ⟨eq_sign_not_white hp, ha'⟩)] at h1
  have ea : a = p ++ a' := (List.cons.inj h1).1
  have eb : b = b' ++ q := by
    have h2 := e
    rw [e', ea] at h2
    simpa using h2
  exact ⟨a', b', e', ha', by rw [ea, strip_white_left hp], by rw [eb, strip_white_right hq]⟩

theorem configNote_sides {f line a b : Str} (hc : Code line (a ++ '=' :: b)) (ha : '=' ∉ a) :
    configNote f line = if strip a ≠ [] ∧ strip b ≠ [] then [] else [f ++ c!": badly formed line '" ++ strip (a ++ '=' :: b) ++ c!"'"] := by
  obtain ⟨a', b', e, ha', h1, h2⟩ := strip_sides (b := b) ha
  rw [code_iff] at hc
  unfold configNote
  rw [← hc]
  dsimp only
  rw [if_pos ⟨by rw [e]; simp, hasSub_single.2 (by rw [e]; simp)⟩]
  simp only [e, partitionS_char ha', h1, h2]

theorem configNote_plain {f line code : Str} (hc : Code line code) (h : '=' ∉ code) :
    configNote f line = if strip code ≠ [] then [f ++ c!": ignoring line '" ++ strip code ++ c!"'"] else [] := by
  rw [code_iff] at hc
  unfold configNote
  rw [← hc]
  dsimp only
  rw [if_neg]
  rintro ⟨-, hs⟩
  obtain ⟨p, q, -, -, e⟩ := strip_decomp code
  exact h (by rw [e]; simp [hasSub_single.1 hs])

/-- What the loop says about a line is what the specification allows. -/
theorem cfgTold_iff {f line : Str} {m : List Str} : CfgTold f line m ↔ configNote f line = m := by
  constructor
  · intro h
    cases h with
    | set k v hs =>
      obtain ⟨code, a, b, hcode, rfl, ha, hk, hv, hk0, hv0⟩ := hs
      rw [padded_iff] at hk hv
      rw [configNote_sides hcode ha, if_pos ⟨hk ▸ hk0, hv ▸ hv0⟩]
    | blank code hc hw =>
      rw [configNote_plain hc (eq_sign_not_white hw), strip_nil_iff.2 hw]; rfl
    | noName a b core hc hw hp =>
      rw [configNote_sides hc (eq_sign_not_white hw), strip_nil_iff.2 hw, padded_iff.1 hp]; simp
    | noValue a b core hc ha hw hp =>
      rw [configNote_sides hc ha, strip_nil_iff.2 hw, padded_iff.1 hp]; simp
    | noSign code core hc hs hw hp =>
      rw [configNote_plain hc hs, if_pos (fun e => hw (strip_nil_iff.1 e)), padded_iff.1 hp]
  · rintro rfl
    obtain ⟨code, hc⟩ : ∃ code, Code line code := ⟨_, code_iff.2 rfl⟩
    by_cases hs : '=' ∈ code
    · obtain ⟨a, b, rfl, ha⟩ : ∃ a b, code = a ++ '=' :: b ∧ '=' ∉ a := List.eq_append_cons_of_mem hs |> fun ⟨x, y, h1, h2⟩ => ⟨x, y, h1, h2⟩
      rw [configNote_sides hc ha]
      by_cases h1 : strip a = []
      · rw [if_neg (by simp [h1])]
        exact .noName a b _ hc (strip_nil_iff.1 h1) (padded_iff.2 rfl)
      · by_cases h2 : strip b = []
        · rw [if_neg (by simp [h2])]
          exact .noValue a b _ hc ha (strip_nil_iff.1 h2) (padded_iff.2 rfl)
        · rw [if_pos ⟨h1, h2⟩]
          exact .set _ _ ⟨_, a, b, hc, rfl, ha, padded_iff.2 rfl, padded_iff.2 rfl, h1, h2⟩
    · rw [configNote_plain hc hs]
      by_cases h1 : strip code = []
      · rw [if_neg (by simp [h1])]
        exact .blank code hc (strip_nil_iff.1 h1)
      · rw [if_pos h1]
        exact .noSign code _ hc hs (fun h => h1 (strip_nil_iff.2 h)) (padded_iff.2 rfl)

theorem loadConfigTold_eq (fs : FS) (cfg : Config) (f : Str) : (loadConfigTold fs cfg f).2 = loadConfig fs cfg f := by
  have h : ∀ (ls : List Str) (acc : List Str × Config),
      (ls.foldl (fun (acc : List Str × Config) line => (acc.1 ++ configNote f line, configLine acc.2 line)) acc).2 = ls.foldl configLine acc.2 := by
    intro ls
    induction ls with
    | nil => intro acc; rfl
    | cons l ls ih => intro acc; rw [List.foldl_cons, List.foldl_cons, ih]
  unfold loadConfigTold loadConfig
  split
  · simp only [h]
  · simp only [h]
  · rfl

theorem loadConfigTold_told {fs : FS} {f content : Str} (h : fs f = some (.text content) ∨ ∃ m, fs f = some (.undecodable content m)) (cfg : Config) :
    (loadConfigTold fs cfg f).1 = ((fileLines content).map (configNote f)).flatten := by
  have h' : ∀ (ls : List Str) (acc : List Str × Config),
      (ls.foldl (fun (acc : List Str × Config) line => (acc.1 ++ configNote f line, configLine acc.2 line)) acc).1 = acc.1 ++ (ls.map (configNote f)).flatten := by
    intro ls
    induction ls with
    | nil => intro acc; simp
    | cons l ls ih => intro acc; rw [List.foldl_cons, ih]; simp
  unfold loadConfigTold
  rcases h with h | ⟨m, h⟩ <;> rw [h] <;> simp only [h', List.nil_append]

end Verif
