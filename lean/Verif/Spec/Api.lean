import Verif.Api
import Verif.Spec.Config
import Verif.Spec.Statements
/-
Specification of sequences of calls on a configuration and on a validation result.
-/

namespace Verif.Spec
open Verif

/-- What the lines of a file set, in their order. -/
inductive SettingsOf : List Str → List (Str × CfgVal) → Prop where
  | nil : SettingsOf [] []
  | other {l ls ss} : (∀ k v, ¬ Sets l k v) → SettingsOf ls ss → SettingsOf (l :: ls) ss
  | sets {l ls ss k v} : Sets l k v → SettingsOf ls ss → SettingsOf (l :: ls) ((k, .text v) :: ss)

/-- What a call sets: one name, or what the lines of the file say as far as it can be decoded, or nothing if there is no such file or it cannot be opened. -/
inductive Puts : CfgCall → List (Str × CfgVal) → Prop where
  | set (k : Str) (v : CfgVal) : Puts (.set k v) [(k, v)]
  | file {fs : FS} {f content ls ss} : fs f = some (.text content) → TextLines content ls → SettingsOf ls ss → Puts (.load fs f) ss
  | broken {fs : FS} {f before m ls ss} : fs f = some (.undecodable before m) → TextLines before ls → SettingsOf ls ss → Puts (.load fs f) ss
  | nothing {fs : FS} {f} : fs f = none ∨ fs f = some .unreadable → Puts (.load fs f) []

/-- The value a name is set to last. -/
def LastSet (ss : List (Str × CfgVal)) (k : Str) (v : CfgVal) : Prop := ∃ pre post, ss = pre ++ (k, v) :: post ∧ k ∉ post.map Prod.fst

/-- What a call adds to a validation result, and how serious it is. -/
inductive Adds : ValidationResult.Call → Str × Level → Prop where
  | issue (s : Str) (l : Level) : Adds (.issue s (some l)) (s, l)
  | standard (s : Str) : Adds (.issue s none) (s, .error)
  | error (s : Str) : Adds (.error s) (s, .error)
  | warning (s : Str) : Adds (.warning s) (s, .warning)
  | info (s : Str) : Adds (.info s) (s, .info)

end Verif.Spec
