import Verif.Spec.Line

/-! # Specification: values shown in WHOX replies

The WHOX convention: `*` stands for no channel, `0` for no account, and a host name that would look
like a trailing parameter (an IPv6 address such as `::1`) gets a leading zero. -/

namespace Verif.Spec

/-- Channel as shown. -/
def shownChannel (c : Str) : Str := if c = [] then b!"*" else c

/-- Account as shown. -/
def shownAccount (a : Str) : Str := if a = [] ∨ a = b!"*" then b!"0" else a

/-- Host name as shown. -/
def shownHost : Str → Str
  | 58 :: h => 48 :: 58 :: h
  | h => h

/-- The canonical order of the WHOX fields in a reply. -/
def whoxOrder : List Byte := b!"tcuihsnfdlaor"

end Verif.Spec
