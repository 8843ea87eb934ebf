import Verif.Model.ZncConf

/-! # ZNC configuration files (C89)

The format of the files, given by what may be written and not by how it is read. -/

namespace Verif.Spec
open Verif.Model

/-- White space only. -/
def Blank (s : Str) : Prop := ∀ c ∈ s, isSpaceRune c = true

/-- `t` is `s` without the white space around it. -/
def Trims (s t : Str) : Prop :=
  ∃ a b, Blank a ∧ Blank b ∧ s = a ++ t ++ b ∧
    (∀ c, t.head? = some c → isSpaceRune c = false) ∧ ∀ c, t.getLast? = some c → isSpaceRune c = false

/-- What a configuration says: settings, and sections with a type and a name. -/
inductive ZncItem
  | value (key val : Str)
  | sect (typ name : Str) (body : List ZncItem)

/-- The texts in which this is written: a setting is a line with an equals sign, white space does not matter around
keys, values, comments and sections, a comment is a line after two slashes. -/
inductive ZncWritten : List ZncItem → Str → Prop
  | done (ws : Str) : Blank ws → ZncWritten [] ws
  | comment (ws line : Str) {items : List ZncItem} {text : Str} : Blank ws → 10 ∉ line → ZncWritten items text →
      ZncWritten items (ws ++ b!"//" ++ line ++ [10] ++ text)
  | value (ws rawKey rawVal key val : Str) {items : List ZncItem} {text : Str} : Blank ws →
      61 ∉ rawKey → 10 ∉ rawKey → 10 ∉ rawVal →
      ¬ b!"<" <+: rawKey → ¬ b!"//" <+: rawKey → (∀ c, rawKey.head? = some c → isSpaceRune c = false) →
      Trims rawKey key → Trims rawVal val → ZncWritten items text →
      ZncWritten (.value key val :: items) (ws ++ rawKey ++ b!"=" ++ rawVal ++ [10] ++ text)
  | sect (ws typ name : Str) {body items : List ZncItem} {inner text : Str} : Blank ws →
      (32 ∉ typ ∧ 62 ∉ typ ∧ 10 ∉ typ ∧ ¬ b!"/" <+: typ) → 62 ∉ name → 10 ∉ name →
      ZncWritten body inner → ZncWritten items text →
      ZncWritten (.sect typ name body :: items)
        (ws ++ b!"<" ++ typ ++ b!" " ++ name ++ b!">" ++ inner ++ b!"</" ++ typ ++ b!">" ++ text)

/-- The settings, in order. -/
def zncSettings : List ZncItem → List (Str × Str)
  | [] => []
  | .value k v :: l => (k, v) :: zncSettings l
  | .sect _ _ _ :: l => zncSettings l

mutual
/-- The section that is written here, if any. -/
def zncSectionOf : ZncItem → List ZncSection
  | .value _ _ => []
  | .sect t n body => [.mk t n (zncSettings body) (zncSectionsOf body)]
/-- The sections that are written here, in order. -/
def zncSectionsOf : List ZncItem → List ZncSection
  | [] => []
  | i :: l => zncSectionOf i ++ zncSectionsOf l
end

end Verif.Spec
