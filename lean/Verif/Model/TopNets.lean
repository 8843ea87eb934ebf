import Verif.Model.PgDb
import Verif.Model.Listen
import Verif.Model.WebSocket
import Mathlib.Data.List.Dedup

/-! # Model of the numbers of networks that are published

database/postgres.go:663-691 (`listTopNetworkAddrs`), 1055-1098 (`postgresMetricsCollector`).

Simplifications: the query does not fail.  Go ranges over maps in any order: the rows are given in any order, and the range
over the second map is the parameter `range`. -/

namespace Verif.Model

/-- database/postgres.go:663-691 — `listTopNetworkAddrs`: the addresses, each with the number of its networks. -/
def tnTopAddrs (networks : List NetworkRow) : List (Str × Nat) :=
  (networks.map (·.addr)).dedup.map (fun a => (a, networks.countP (fun r => decide (r.addr = a))))

/-- database/postgres.go:1077-1081 — the host of an address. -/
def tnHostname (lib : UrlLib) (addr : Str) : Str :=
  match netUrl lib addr with
  | some u => urlHostname u.host
  | none => addr

/-- database/postgres.go:1082 — `hostnames[hostname] += n`. -/
def tnAdd (m : List (Str × Nat)) (host : Str) (n : Nat) : List (Str × Nat) :=
  match m with
  | [] => [(host, n)]
  | (h, k) :: m => if h = host then (h, k + n) :: m else (h, k) :: tnAdd m host n

/-- database/postgres.go:1074-1083 — group by hostname. -/
def tnGroup (lib : UrlLib) (addrs : List (Str × Nat)) : List (Str × Nat) :=
  addrs.foldl (fun m a => tnAdd m (tnHostname lib a.1) a.2) []

/-- unicode/utf8 (library) `ValidString`. -/
def utf8Valid (s : Str) : Bool :=
  match s with
  | [] => true
  | c :: s =>
    if c < 0x80 then utf8Valid s
    else decide (utf8Width (c :: s) ≠ 1) && utf8Valid (s.drop (utf8Width (c :: s) - 1))
termination_by s.length
decreasing_by all_goals simp <;> omega

/-- database/postgres.go:1086-1097 — the loop; `none` if `MustNewConstMetric` panics, which it does for a label that is not
valid UTF-8 (client_golang v1.20.5).  `grouped` is what is published for `*`. -/
def tnPublish (grouped : Nat) : List (Str × Nat) → Option (List (Str × Nat))
  | [] => some (if 0 < grouped then [(b!"*", grouped)] else [])
  | (host, n) :: l =>
    if n ≥ 10 ∧ host ≠ [] ∧ host ≠ b!"*" then
      if utf8Valid host then (tnPublish grouped l).map ((host, n) :: ·) else none
    else tnPublish (grouped + n) l

/-- database/postgres.go:1067-1098 — `Collect`: hosts and numbers, `none` for a panic. -/
def tnCollect (lib : UrlLib) (range : List (Str × Nat) → List (Str × Nat)) (addrs : List (Str × Nat)) :
    Option (List (Str × Nat)) :=
  tnPublish 0 (range (tnGroup lib addrs))

end Verif.Model
