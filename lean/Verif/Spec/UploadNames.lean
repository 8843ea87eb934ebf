import Verif.Model.Upload

/-! # The names of uploaded files: specification (C43, C44) -/

namespace Verif.Spec
open Verif.Model

/-- The endings of files by type. -/
def knownEndings : List (Str × Str) :=
  [(b!"audio/aac", b!".aac"), (b!"audio/mp4", b!".mp4"), (b!"audio/mpeg", b!".mp3"), (b!"audio/ogg", b!".oga"),
   (b!"image/jpeg", b!".jpeg"), (b!"text/plain", b!".txt"), (b!"video/mp4", b!".mp4")]

/-- The ending for a file whose type is given: a known one, or the only one there is for the type, or none. -/
def EndingFor (lib : UpLib) (contentType ending : Str) : Prop :=
  if contentType = [] then ending = []
  else
    ∃ t params, lib.parseMedia contentType = some (t, params) ∧
      (((t = [] ∨ t = b!"application/octet-stream") ∧ ending = []) ∨
       (t ≠ b!"application/octet-stream" ∧ (t, ending) ∈ knownEndings) ∨
       (t ≠ [] ∧ t ≠ b!"application/octet-stream" ∧ t ∉ knownEndings.map (·.1) ∧ lib.exts t = [ending]) ∨
       (t ≠ b!"application/octet-stream" ∧ t ∉ knownEndings.map (·.1) ∧ (∀ e, lib.exts t ≠ [e]) ∧ ending = []))

/-- The text is in an encoding that is not known. -/
def StrangeCharset (lib : UpLib) (contentType : Str) : Prop :=
  contentType ≠ [] ∧ ∃ t params cs, lib.parseMedia contentType = some (t, params) ∧ GoMap.get params b!"charset" = some cs ∧
    cs.map (fun c => if 65 ≤ c ∧ c ≤ 90 then c + 32 else c) ∉ [[], b!"utf-8", b!"us-ascii"]

end Verif.Spec
